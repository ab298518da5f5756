/-
C81: the entries of orphaned directories that a walk over a FAT volume reports: all of them.
-/
import Verif.Props.C81_Orphans
namespace Verif.Props
open Verif.FAT Verif.Spec.FAT Volume

/-! ### What is remembered -/

theorem subdirectory_effect {v : Volume} {scanReallocated : Bool} {e : FileEntry} {seen seen' : Seen} {r : Except Exc (Option Bytes)}
    (h : v.subdirectory scanReallocated e seen = (r, seen')) :
    seen.reallocated ⊆ seen'.reallocated ∧ (Remembered v scanReallocated e → e.firstCluster ∈ seen'.reallocated) ∧
    ∀ c ∈ seen'.visited, c ∈ seen.visited ∨ (c = e.firstCluster ∧ ¬ Remembered v scanReallocated e) := by
  unfold Volume.subdirectory at h
  dsimp only at h
  split at h
  · rename_i ha
    cases h
    exact ⟨fun _ h => h, (fun hr => by rw [hr.2.2.2] at ha; cases ha), fun _ h => .inl h⟩
  · rename_i ha
    cases h
    exact ⟨fun _ h => h, (fun hr => by rw [hr.2.2.2] at ha; cases ha), fun _ h => .inl h⟩
  rename_i allocated ha
  split at h
  · cases h
    exact ⟨fun _ h => List.mem_append_left _ h, fun _ => List.mem_append_right _ (List.mem_singleton.mpr rfl), fun _ h => .inl h⟩
  rename_i hr
  have hn : ¬ Remembered v scanReallocated e := fun hm => hr ⟨hm.1, by simpa using hm.2.2.1, by
    have := hm.2.2.2
    rw [ha] at this
    cases this
    rfl⟩
  have key : ∀ s : Seen, s = { seen with visited := seen.visited ++ [e.firstCluster] } →
      seen.reallocated ⊆ s.reallocated ∧ (Remembered v scanReallocated e → e.firstCluster ∈ s.reallocated) ∧
      ∀ c ∈ s.visited, c ∈ seen.visited ∨ (c = e.firstCluster ∧ ¬ Remembered v scanReallocated e) := by
    rintro s rfl
    refine ⟨fun _ h => h, fun hm => absurd hm hn, fun c hc => ?_⟩
    rcases List.mem_append.mp hc with hc | hc
    · exact .inl hc
    · exact .inr ⟨List.mem_singleton.mp hc, hn⟩
  split at h
  · cases h; exact key _ rfl
  split at h
  · cases h; exact key _ rfl
  split at h
  · cases h; exact key _ rfl
  split at h <;> (cases h; exact key _ rfl)

/-- What holds of what was seen keeps to hold, if it does for the entries and for the directories that are entered. -/
theorem processEntries_holds {I : Seen → Prop} (v : Volume) (scanReallocated : Bool) (down : Nat → Bytes → Str → List Nat → Seen → Option Walk)
    (parent : Str) (base : List Nat) (items : List Item)
    (hS : ∀ e, .file e ∈ items → IsSubdirectory e → ¬ Loops base e → ∀ seen r seen', v.subdirectory scanReallocated e seen = (r, seen') → I seen → I seen')
    (hD : ∀ e buf, .file e ∈ items → ¬ Loops base e → Enters v scanReallocated e buf → ∀ seen g seen', I seen →
      down e.firstCluster buf (subName parent e) (e.firstCluster :: base) seen = some (g, seen') → I seen')
    (stack : List Nat) (prev : Option Nat) (seen : Seen) (hp : ∀ p, prev = some p → p ∉ base)
    (hst : stack = base ∨ ∃ p, prev = some p ∧ stack = p :: base) (hI : I seen) (g : Gen Item) (seen' : Seen)
    (h : v.processEntries scanReallocated down parent items stack prev seen = some (g, seen')) : I seen' := by
  induction items generalizing stack prev seen g seen' with
  | nil =>
    unfold Volume.processEntries at h
    cases h
    exact hI
  | cons item items ih =>
    replace ih := ih (fun e he => hS e (List.mem_cons_of_mem _ he)) (fun e buf he => hD e buf (List.mem_cons_of_mem _ he))
    cases item with
    | orphan name =>
      unfold Volume.processEntries at h
      split at h
      · cases h; exact hI
      split at h
      · cases h
      rename_i hr
      cases h
      exact ih _ _ _ hp hst hI _ _ hr
    | file e0 =>
      have hm : Item.file e0 ∈ Item.file e0 :: items := List.mem_cons_self ..
      unfold Volume.processEntries at h
      dsimp only at h
      rw [leave_base hp hst] at h
      by_cases hloop : Loops base e0
      · rw [if_pos ((guarded_iff e0 base).mpr hloop)] at h
        exact ih base prev seen hp (Or.inl rfl) hI _ _ h
      · rw [if_neg (fun hh => hloop ((guarded_iff e0 base).mp hh)), expand_file] at h
        obtain ⟨hp', hst'⟩ := next_state (e := e0) hp hloop
        dsimp only at h
        split at h
        · split at h
          · cases h
          rename_i hr
          cases h
          exact ih _ _ _ hp' hst' hI _ _ hr
        rename_i hen0
        have hsubd := (entered_iff e0).mp (Decidable.not_not.mp hen0)
        split at h
        · rename_i hsub
          cases h
          exact hS e0 hm hsubd hloop _ _ _ hsub hI
        · rename_i hsub
          split at h
          · cases h
          rename_i hr
          cases h
          exact ih _ _ _ hp' hst' (hS e0 hm hsubd hloop _ _ _ hsub hI) _ _ hr
        · rename_i buf0 seen1 hsub
          have hen := subdirectory_Enters hsubd hsub
          have hgd := enters_guard hen
          have hI1 := hS e0 hm hsubd hloop _ _ _ hsub hI
          rw [if_pos hgd] at hp' hst' h
          rw [if_pos hgd] at hst' h
          rw [subName_eq] at h
          split at h
          · cases h
          · rename_i hd
            cases h
            exact hD e0 buf0 hm hloop hen _ _ _ hI1 hd
          · rename_i hd
            split at h
            · cases h
            rename_i hr
            cases h
            exact ih _ _ _ hp' hst' (hD e0 buf0 hm hloop hen _ _ _ hI1 hd) _ _ hr

theorem processBuf_holds {I : Seen → Prop} {R : Str → List Nat → Bytes → Prop} (v : Volume) (codec : Codec) (scanReallocated : Bool)
    (hsub : ∀ name path buf e buf', R name path buf → .file e ∈ (listDirectory codec (decide (v.table.type = .fat32)) false buf).items →
      ¬ Loops path e → Enters v scanReallocated e buf' → R (subName name e) (e.firstCluster :: path) buf')
    (hS : ∀ name path buf e, R name path buf → .file e ∈ (listDirectory codec (decide (v.table.type = .fat32)) false buf).items →
      IsSubdirectory e → ¬ Loops path e → ∀ seen r seen', v.subdirectory scanReallocated e seen = (r, seen') → I seen → I seen')
    (fuel : Nat) (name : Str) (path : List Nat) (buf : Bytes) (hr : R name path buf) (seen : Seen) (hI : I seen) (g : Gen Item) (seen' : Seen)
    (h : v.processBuf codec scanReallocated fuel buf name path seen = some (g, seen')) : I seen' := by
  induction fuel generalizing name path buf seen g seen' with
  | zero => unfold Volume.processBuf at h; cases h
  | succ fuel ih =>
    unfold Volume.processBuf Volume.oneDirectory at h
    cases ho : openDirectory buf with
    | error e => rw [ho] at h; cases h; exact hI
    | ok _ =>
      rw [ho] at h
      dsimp only at h
      have hlist : entries codec (decide (v.table.type = .fat32)) false buf = listDirectory codec (decide (v.table.type = .fat32)) false buf := by
        unfold listDirectory; rw [ho]
      rw [hlist] at h
      have key := processEntries_holds (I := I) v scanReallocated (fun _ => v.processBuf codec scanReallocated fuel) name path
        (listDirectory codec (decide (v.table.type = .fat32)) false buf).items (fun e he => hS name path buf e hr he)
        (fun e buf' he hl hen seen g seen' hI hd => ih _ _ buf' (hsub _ _ _ _ _ hr he hl hen) seen hI g seen' hd)
        path none seen (by simp) (Or.inl rfl) hI
      split at h
      · cases h
      · rename_i hp
        cases h
        exact key _ _ hp
      · rename_i hp
        cases h
        exact key _ _ hp

theorem processBuf_reallocated (v : Volume) (codec : Codec) (scanReallocated : Bool) (fuel : Nat) (name : Str) (path : List Nat) (buf : Bytes) (seen : Seen)
    (g : Gen Item) (seen' : Seen) (h : v.processBuf codec scanReallocated fuel buf name path seen = some (g, seen')) :
    seen.reallocated ⊆ seen'.reallocated := fun c hc =>
  processBuf_holds (I := fun s => c ∈ s.reallocated) (R := fun _ _ _ => True) v codec scanReallocated (fun _ _ _ _ _ _ _ _ _ => trivial)
    (fun _ _ _ _ _ _ _ _ _ _ _ hs hc => (subdirectory_effect hs).1 hc) fuel name path buf trivial seen hc g seen' h

/-- When the loop over the entries ends without an exception, every deleted directory whose first cluster is in use again is remembered. -/
theorem processEntries_collected (v : Volume) (scanReallocated : Bool) (down : Nat → Bytes → Str → List Nat → Seen → Option Walk)
    (hD : ∀ c buf n p s g s', down c buf n p s = some (g, s') → s.reallocated ⊆ s'.reallocated) (parent : Str) (base : List Nat) (items : List Item)
    (stack : List Nat) (prev : Option Nat) (seen : Seen) (hp : ∀ p, prev = some p → p ∉ base)
    (hst : stack = base ∨ ∃ p, prev = some p ∧ stack = p :: base) (g : Gen Item) (seen' : Seen)
    (h : v.processEntries scanReallocated down parent items stack prev seen = some (g, seen')) (hg : g.err = none) :
    (∀ e, .file e ∈ items → ¬ Loops base e → Remembered v scanReallocated e → e.firstCluster ∈ seen'.reallocated) ∧
    ∀ e buf, .file e ∈ items → ¬ Loops base e → Enters v scanReallocated e buf → ∃ seen1 g1 seen2,
      down e.firstCluster buf (subName parent e) (e.firstCluster :: base) seen1 = some (g1, seen2) ∧ g1.err = none ∧
      seen2.reallocated ⊆ seen'.reallocated := by
  have mono : ∀ items stack prev seen g seen', (∀ p, prev = some p → p ∉ base) → (stack = base ∨ ∃ p, prev = some p ∧ stack = p :: base) →
      v.processEntries scanReallocated down parent items stack prev seen = some (g, seen') → seen.reallocated ⊆ seen'.reallocated :=
    fun items stack prev seen g seen' hp hst h c hc => processEntries_holds (I := fun s => c ∈ s.reallocated) v scanReallocated down parent base items
      (fun _ _ _ _ _ _ _ hs hc => (subdirectory_effect hs).1 hc) (fun _ _ _ _ _ _ _ _ hc hd => hD _ _ _ _ _ _ _ hd hc)
      stack prev seen hp hst hc g seen' h
  induction items generalizing stack prev seen g seen' with
  | nil => exact ⟨(fun _ he => by cases he), fun _ _ he => by cases he⟩
  | cons item items ih =>
    cases item with
    | orphan name =>
      unfold Volume.processEntries at h
      split at h
      · cases h; cases hg
      split at h
      · cases h
      rename_i hr
      cases h
      obtain ⟨i1, i2⟩ := ih _ _ _ hp hst _ _ hr hg
      exact ⟨fun e he => i1 e (by simpa using he), fun e buf he => i2 e buf (by simpa using he)⟩
    | file e0 =>
      unfold Volume.processEntries at h
      dsimp only at h
      rw [leave_base hp hst] at h
      by_cases hloop : Loops base e0
      · rw [if_pos ((guarded_iff e0 base).mpr hloop)] at h
        obtain ⟨i1, i2⟩ := ih base prev seen hp (Or.inl rfl) _ _ h hg
        refine ⟨fun e he hl => ?_, fun e buf he hl => ?_⟩
        · rcases List.mem_cons.mp he with he | he
          · cases he; exact absurd hloop hl
          · exact i1 e he hl
        · rcases List.mem_cons.mp he with he | he
          · cases he; exact absurd hloop hl
          · exact i2 e buf he hl
      · rw [if_neg (fun hh => hloop ((guarded_iff e0 base).mp hh)), expand_file] at h
        obtain ⟨hp', hst'⟩ := next_state (e := e0) hp hloop
        dsimp only at h
        split at h
        · rename_i hen0
          split at h
          · cases h
          rename_i hr
          cases h
          obtain ⟨i1, i2⟩ := ih _ _ _ hp' hst' _ _ hr hg
          refine ⟨fun e he hl hrem => ?_, fun e buf he hl hen => ?_⟩
          · rcases List.mem_cons.mp he with he | he
            · cases he; exact absurd ((entered_iff e0).mpr hrem.2.1) hen0
            · exact i1 e he hl hrem
          · rcases List.mem_cons.mp he with he | he
            · cases he; exact absurd ((entered_iff e0).mpr hen.1) hen0
            · exact i2 e buf he hl hen
        rename_i hen0
        have hsubd := (entered_iff e0).mp (Decidable.not_not.mp hen0)
        split at h
        · cases h; cases hg
        · rename_i hsub
          split at h
          · cases h
          rename_i hr
          cases h
          obtain ⟨i1, i2⟩ := ih _ _ _ hp' hst' _ _ hr hg
          refine ⟨fun e he hl hrem => ?_, fun e buf he hl hen => ?_⟩
          · rcases List.mem_cons.mp he with he | he
            · cases he
              exact mono _ _ _ _ _ _ hp' hst' hr ((subdirectory_effect hsub).2.1 hrem)
            · exact i1 e he hl hrem
          · rcases List.mem_cons.mp he with he | he
            · cases he
              obtain ⟨s, hs | ⟨x, hs⟩⟩ := subdirectory_enters hen seen <;> (rw [hs] at hsub; cases hsub)
            · exact i2 e buf he hl hen
        · rename_i buf0 seen1 hsub
          have hgd := enters_guard (subdirectory_Enters hsubd hsub)
          rw [if_pos hgd] at hp' hst' h
          rw [if_pos hgd] at hst' h
          rw [subName_eq] at h
          split at h
          · cases h
          · cases h; cases hg
          · rename_i hd
            split at h
            · cases h
            rename_i hr
            cases h
            have hm := mono _ _ _ _ _ _ hp' hst' hr
            obtain ⟨i1, i2⟩ := ih _ _ _ hp' hst' _ _ hr hg
            refine ⟨fun e he hl hrem => ?_, fun e buf he hl hen => ?_⟩
            · rcases List.mem_cons.mp he with he | he
              · cases he
                exact hm (hD _ _ _ _ _ _ _ hd ((subdirectory_effect hsub).2.1 hrem))
              · exact i1 e he hl hrem
            · rcases List.mem_cons.mp he with he | he
              · cases he
                obtain ⟨s, hs | ⟨x, hs⟩⟩ := subdirectory_enters hen seen
                · rw [hs] at hsub
                  cases hsub
                  exact ⟨_, _, _, hd, rfl, hm⟩
                · rw [hs] at hsub; cases hsub
              · exact i2 e buf he hl hen

theorem processBuf_collected (v : Volume) (codec : Codec) (scanReallocated : Bool) (fuel : Nat) (name : Str) (path : List Nat) (buf : Bytes) (seen : Seen)
    (g : Gen Item) (seen' : Seen) (h : v.processBuf codec scanReallocated fuel buf name path seen = some (g, seen')) (hg : g.err = none) :
    (∀ e, .file e ∈ (listDirectory codec (decide (v.table.type = .fat32)) false buf).items → ¬ Loops path e → Remembered v scanReallocated e →
      e.firstCluster ∈ seen'.reallocated) ∧
    ∀ e buf', .file e ∈ (listDirectory codec (decide (v.table.type = .fat32)) false buf).items → ¬ Loops path e → Enters v scanReallocated e buf' →
      ∃ fuel' seen1 g1 seen2, v.processBuf codec scanReallocated fuel' buf' (subName name e) (e.firstCluster :: path) seen1 = some (g1, seen2) ∧
        g1.err = none ∧ seen2.reallocated ⊆ seen'.reallocated := by
  cases fuel with
  | zero => unfold Volume.processBuf at h; cases h
  | succ fuel =>
    unfold Volume.processBuf Volume.oneDirectory at h
    cases ho : openDirectory buf with
    | error e => rw [ho] at h; cases h; cases hg
    | ok _ =>
      rw [ho] at h
      dsimp only at h
      have hlist : entries codec (decide (v.table.type = .fat32)) false buf = listDirectory codec (decide (v.table.type = .fat32)) false buf := by
        unfold listDirectory; rw [ho]
      rw [hlist] at h
      cases hp : v.processEntries scanReallocated (fun _ => v.processBuf codec scanReallocated fuel) name
          (listDirectory codec (decide (v.table.type = .fat32)) false buf).items path none seen with
      | none => rw [hp] at h; cases h
      | some w =>
        obtain ⟨⟨its, err⟩, seen2⟩ := w
        rw [hp] at h
        cases err with
        | some e => cases h; cases hg
        | none =>
          cases h
          obtain ⟨a1, a2⟩ := processEntries_collected v scanReallocated _
            (fun _ buf n p s g s' hd => processBuf_reallocated v codec scanReallocated fuel n p buf s g s' hd) name path _ path none seen (by simp)
            (Or.inl rfl) _ _ hp rfl
          exact ⟨a1, fun e buf' he hl hen => ⟨fuel, a2 e buf' he hl hen⟩⟩

theorem orphans_all (v : Volume) (codec : Codec) (scanReallocated : Bool) (fuel : Nat) (l : List Nat)
    (seen : Seen) (g : Gen Item) (seen' : Seen) (h : v.orphans (v.processBuf codec scanReallocated fuel) l seen = some (g, seen')) (hg : g.err = none)
    (c : Nat) (start : Bytes) (hc : c ∈ l) (hb : v.readChain c none = .ok start) (h1 : 512 ≤ start.length) (h2 : slice start 0 2 = [0x2E, 0x20])
    (h3 : slice start 32 35 = [0x2E, 0x2E, 0x20]) :
    ∃ s1 g1 s2, v.processBuf codec scanReallocated fuel start (orphanPath c) [] s1 = some (g1, s2) ∧ g1.err = none ∧ ∀ x ∈ g1.items, x ∈ g.items := by
  induction l generalizing seen g seen' with
  | nil => cases hc
  | cons c0 l ih =>
    unfold Volume.orphans at h
    rcases List.mem_cons.mp hc with rfl | hc
    · rw [hb] at h
      dsimp only at h
      rw [if_neg (by rw [h2, h3]; simp; omega)] at h
      split at h
      · cases h
      · cases h; cases hg
      · rename_i hp
        split at h
        · cases h
        cases h
        exact ⟨_, _, _, hp, rfl, fun x hx => List.mem_append_left _ hx⟩
    · replace ih := fun seen g seen' h hg => ih seen g seen' h hg hc
      split at h
      · split at h
        · exact ih _ _ _ h hg
        · cases h; cases hg
      split at h
      · exact ih _ _ _ h hg
      split at h
      · cases h
      · cases h; cases hg
      · split at h
        · cases h
        rename_i hq
        cases h
        obtain ⟨s1, g1, s2, a, b, d⟩ := ih _ _ _ hq hg
        exact ⟨s1, g1, s2, a, b, fun x hx => List.mem_append_right _ (d x hx)⟩

/-- The deleted directory of an entry that can be reached from the root; its first cluster is in use again, but not by the root directory, and
no entry that can be reached from the root and is not deleted is one of a directory that begins there. -/
def Forgotten (v : Volume) (codec : Codec) (scanReallocated : Bool) (c : Nat) : Prop :=
  scanReallocated = false ∧ c ∉ rootPath v ∧
  (∃ name path buf e, Reached v codec scanReallocated false name path buf ∧
    .file e ∈ (listDirectory codec (decide (v.table.type = .fat32)) false buf).items ∧ ¬ Loops path e ∧ IsSubdirectory e ∧ e.isDeleted = some true ∧
    v.table.isAllocated e.firstCluster = .ok (some true) ∧ c = e.firstCluster) ∧
  ∀ name path buf e, Reached v codec scanReallocated false name path buf →
    .file e ∈ (listDirectory codec (decide (v.table.type = .fat32)) false buf).items → ¬ Loops path e → IsSubdirectory e → e.isDeleted ≠ some true →
    e.firstCluster ≠ c

/-- C81, about orphaned directories: when a walk ends without an exception, every entry was reported that is in a deleted directory whose first
cluster is in use again, but not by a directory that can be reached, if this still begins like a directory. -/
theorem C81_orphans_complete (v : Volume) (codec : Codec) (scanReallocated : Bool) (order : List Nat → List Nat)
    (horder : ∀ l, ∀ c ∈ l, c ∈ order l) (depth : Nat) (g : Gen Item) (h : v.walk codec scanReallocated order depth = some g) (hg : g.err = none)
    (c : Nat) (start : Bytes) (hc : Forgotten v codec scanReallocated c) (hstart : v.readChain c none = .ok start) (h512 : 512 ≤ start.length)
    (hdot : slice start 0 2 = [0x2E, 0x20]) (hdots : slice start 32 35 = [0x2E, 0x2E, 0x20])
    (name : Str) (path : List Nat) (buf : Bytes) (hr : Below v codec scanReallocated c start name path buf) (item : Item)
    (hi : item ∈ (listDirectory codec (decide (v.table.type = .fat32)) false buf).items) (x : Item) (hx : Reports name path item x) : x ∈ g.items := by
  unfold Volume.walk Volume.walkWith at h
  cases hb : v.root with
  | error x => rw [hb] at h; cases h; cases hg
  | ok r =>
    obtain ⟨buf0, stack⟩ := r
    rw [hb] at h
    dsimp only at h
    obtain ⟨hroot, hstack⟩ := root_data hb
    rw [hstack] at h
    cases hp : v.processBuf codec scanReallocated depth buf0 [] (rootPath v) ⟨[], rootPath v⟩ with
    | none => rw [hp] at h; cases h
    | some w =>
      obtain ⟨⟨its, err⟩, seen⟩ := w
      rw [hp] at h
      cases err with
      | some y => cases h; cases hg
      | none =>
        dsimp only at h
        obtain ⟨hscan, hnotroot, ⟨n, p, b, e, m1, m2, m3, m4, m5, m6, m7⟩, hother⟩ := hc
        have halloc : v.table.isAllocated c = .ok (some true) := by rw [m7]; exact m6
        -- no directory that was entered begins there
        have hnot : c ∉ seen.visited := by
          refine processBuf_holds (I := fun s => c ∉ s.visited) (R := Reached v codec scanReallocated false) v codec scanReallocated
            (fun _ _ _ _ _ => .sub) ?_ depth _ _ _ (.root hroot) ⟨[], rootPath v⟩ hnotroot _ _ hp
          intro name path buf e hr he hsubd hl s r s' hs hcs hm
          rcases (subdirectory_effect hs).2.2 c hm with hm | ⟨hm, hn⟩
          · exact hcs hm
          · refine hother name path buf e hr he hl hsubd ?_ hm.symm
            intro hd
            exact hn ⟨hscan, hsubd, hd, by rw [← hm]; exact halloc⟩
        -- and it was remembered
        have hcol : ∀ name path b, Reached v codec scanReallocated false name path b →
            ∃ fuel s1 g1 s2, v.processBuf codec scanReallocated fuel b name path s1 = some (g1, s2) ∧ g1.err = none ∧
              s2.reallocated ⊆ seen.reallocated := by
          intro name path b hr
          induction hr with
          | root hb' =>
            rename_i b
            have hbuf : buf0 = b := by
              unfold RootData at hb' hroot
              split at hb'
              · rename_i ht
                rw [if_pos ht, hb'] at hroot
                cases hroot; rfl
              · rename_i ht
                rw [if_neg ht] at hroot
                dsimp only at hb' hroot
                rw [hb', hroot]
            subst hbuf
            exact ⟨depth, _, _, _, hp, rfl, fun _ h => h⟩
          | sub _ he hl hen ih =>
            obtain ⟨fuel, s1, g1, s2, h1, h2, h3⟩ := ih
            obtain ⟨fuel', s3, g2, s4, b1, b2, b3⟩ := (processBuf_collected v codec scanReallocated fuel _ _ _ s1 g1 s2 h1 h2).2 _ _ he hl hen
            exact ⟨fuel', s3, g2, s4, b1, b2, fun x hx => h3 (b3 hx)⟩
          | orphan h => cases h
        have hin : c ∈ seen.reallocated := by
          obtain ⟨fuel, s1, g1, s2, q1, q2, q3⟩ := hcol n p b m1
          rw [m7]
          exact q3 ((processBuf_collected v codec scanReallocated fuel _ _ _ s1 g1 s2 q1 q2).1 e m2 m3 ⟨hscan, m4, m5, m6⟩)
        cases hq : v.orphans (v.processBuf codec scanReallocated depth) (order ((seen.reallocated.filter (· ∉ seen.visited)).eraseDups)) seen with
        | none => rw [hq] at h; cases h
        | some w =>
          rw [hq] at h
          cases h
          obtain ⟨s1, g1, s2, q1, q2, q3⟩ := orphans_all v codec scanReallocated depth _ seen _ _ hq hg c start
            (horder _ c (List.mem_eraseDups.mpr (List.mem_filter.mpr ⟨hin, by simpa using hnot⟩))) hstart h512 hdot hdots
          have key : ∃ fuel s1 g1 s2, v.processBuf codec scanReallocated fuel buf name path s1 = some (g1, s2) ∧ g1.err = none ∧
              ∀ x ∈ g1.items, x ∈ w.1.items := by
            clear hi hx
            induction hr with
            | self => exact ⟨depth, s1, g1, s2, by rw [← orphanPath_eq]; exact q1, q2, q3⟩
            | sub _ he hl hen ih =>
              obtain ⟨fuel, s3, g3, s4, r1, r2, r3⟩ := ih
              obtain ⟨fuel', s5, g4, s6, t1, t2, t3⟩ := (processBuf_all v codec scanReallocated fuel _ _ _ s3 g3 s4 r1 r2).2 _ _ he hl hen
              exact ⟨fuel', s5, g4, s6, t1, t2, fun x hx => r3 x (t3 x hx)⟩
          obtain ⟨fuel, s3, g3, s4, r1, r2, r3⟩ := key
          exact List.mem_append_right _ (r3 x ((processBuf_all v codec scanReallocated fuel _ _ _ s3 g3 s4 r1 r2).1 item hi x hx))

/-- The volume has a root directory with subdirectories that are deleted, with clusters that are in use again, only. -/
def onlyDeleted (v : Volume) (codec : Codec) : Bool :=
  match v.root with
  | .error _ => false
  | .ok (buf, _) => (listDirectory codec (decide (v.table.type = .fat32)) false buf).items.all fun
    | .file e => decide (e.isDeleted = some true) && decide (v.table.isAllocated e.firstCluster = .ok (some true))
    | .orphan _ => true

theorem onlyDeleted_root {v : Volume} {codec : Codec} (h : onlyDeleted v codec = true) {name : Str} {path : List Nat} {buf : Bytes}
    (hr : Reached v codec false false name path buf) (e : FileEntry) (he : .file e ∈ (listDirectory codec (decide (v.table.type = .fat32)) false buf).items) :
    e.isDeleted = some true ∧ v.table.isAllocated e.firstCluster = .ok (some true) := by
  unfold onlyDeleted at h
  cases hb : v.root with
  | error x => rw [hb] at h; cases h
  | ok r =>
    obtain ⟨buf0, stack⟩ := r
    rw [hb] at h
    dsimp only at h
    have hall := List.all_eq_true.mp h
    obtain ⟨hroot, _⟩ := root_data hb
    induction hr generalizing e with
    | root hb' =>
      rename_i b
      have hbuf : buf0 = b := by
        unfold RootData at hb' hroot
        split at hb'
        · rename_i ht
          rw [if_pos ht, hb'] at hroot
          cases hroot; rfl
        · rename_i ht
          rw [if_neg ht] at hroot
          dsimp only at hb' hroot
          rw [hb', hroot]
      subst hbuf
      simpa using hall _ he
    | sub _ he' hl hen ih =>
      obtain ⟨h1, h2⟩ := ih _ he'
      obtain ⟨_, ⟨a, ha, ha'⟩, _⟩ := hen
      rw [h2] at ha
      cases ha
      exact absurd (ha' rfl h1) (by simp)
    | orphan h => cases h

/-- What `Forgotten` and the other hypotheses of `C81_orphans_complete` ask for, for a volume whose root directory has deleted entries only. -/
def orphanCase (v : Volume) (codec : Codec) (c : Nat) (entry : Str) : Bool :=
  onlyDeleted v codec && decide (c ∉ rootPath v) &&
  (match v.root with
    | .error _ => false
    | .ok (buf, stack) => (listDirectory codec (decide (v.table.type = .fat32)) false buf).items.any fun
      | .file e => entered e && decide (e.firstCluster = c) && decide (c ∉ stack)
      | .orphan _ => false) &&
  (match v.readChain c none with
    | .error _ => false
    | .ok start => decide (512 ≤ start.length) && decide (slice start 0 2 = [0x2E, 0x20]) && decide (slice start 32 35 = [0x2E, 0x2E, 0x20]) &&
      (listDirectory codec (decide (v.table.type = .fat32)) false start).items.any fun
        | .file e => decide (e.shortName = entry)
        | .orphan _ => false)

theorem orphanCase_meets {v : Volume} {codec : Codec} {c : Nat} {entry : Str} (h : orphanCase v codec c entry = true) :
    Forgotten v codec false c ∧ ∃ start e, v.readChain c none = .ok start ∧ 512 ≤ start.length ∧ slice start 0 2 = [0x2E, 0x20] ∧
      slice start 32 35 = [0x2E, 0x2E, 0x20] ∧ Below v codec false c start (Str.ofString s!"<Orphan directory {c}>") [] start ∧
      .file e ∈ (listDirectory codec (decide (v.table.type = .fat32)) false start).items ∧ e.shortName = entry := by
  unfold orphanCase at h
  simp only [Bool.and_eq_true, decide_eq_true_eq] at h
  obtain ⟨⟨⟨h1, h2⟩, h3⟩, h4⟩ := h
  refine ⟨⟨rfl, h2, ?_, ?_⟩, ?_⟩
  · split at h3
    · cases h3
    rename_i buf stack hb
    obtain ⟨hroot, hstack⟩ := root_data hb
    obtain ⟨item, hi, hi'⟩ := List.any_eq_true.mp h3
    split at hi'
    · rename_i e
      simp only [Bool.and_eq_true, decide_eq_true_eq] at hi'
      obtain ⟨⟨e1, e2⟩, e3⟩ := hi'
      have hr : Reached v codec false false [] (rootPath v) buf := .root hroot
      obtain ⟨d1, d2⟩ := onlyDeleted_root h1 hr e hi
      exact ⟨_, _, _, e, hr, hi, fun hl => h2 (by rw [← e2]; exact hl.2.2), (entered_iff e).mp e1, d1, d2, e2.symm⟩
    · cases hi'
  · intro name path buf e hr he _ _ hd
    exact absurd (onlyDeleted_root h1 hr e he).1 hd
  · split at h4
    · cases h4
    rename_i start hb
    simp only [Bool.and_eq_true, decide_eq_true_eq] at h4
    obtain ⟨⟨⟨a1, a2⟩, a3⟩, a4⟩ := h4
    obtain ⟨item, hi, hi'⟩ := List.any_eq_true.mp a4
    split at hi'
    · exact ⟨start, _, hb, a1, a2, a3, .self, hi, of_decide_eq_true hi'⟩
    · cases hi'

/-- The hypotheses of `C81_orphans_complete` are met by the orphaned directory in cluster 2 of the volume above, and its entry `SUB`. -/
example : ∃ v g start e, openVolume orphanVolume 0 none = .ok v ∧ v.walk ascii false id (v.table.lastValidCluster.toNat + 2) = some g ∧ g.err = none ∧
    Forgotten v ascii false 2 ∧ v.readChain 2 none = .ok start ∧ 512 ≤ start.length ∧ slice start 0 2 = [0x2E, 0x20] ∧
    slice start 32 35 = [0x2E, 0x2E, 0x20] ∧ Below v ascii false 2 start (Str.ofString "<Orphan directory 2>") [] start ∧
    .file e ∈ (listDirectory ascii (decide (v.table.type = .fat32)) false start).items ∧ e.shortName = Str.ofString "SUB" := by
  have h : (match openVolume orphanVolume 0 none with
    | .error _ => false
    | .ok v => orphanCase v ascii 2 (Str.ofString "SUB") && match v.walk ascii false id (v.table.lastValidCluster.toNat + 2) with
      | none => false
      | some g => g.err.isNone) = true := by
    decide +kernel
  split at h
  · cases h
  rename_i v hv
  obtain ⟨h1, h2⟩ := Bool.and_eq_true _ _ ▸ h
  split at h2
  · cases h2
  rename_i g hg
  obtain ⟨hf, start, e, a1, a2, a3, a4, a5, a6, a7⟩ := orphanCase_meets h1
  exact ⟨v, g, start, e, hv, hg, by simpa using h2, hf, a1, a2, a3, a4, a5, a6, a7⟩

end Verif.Props
