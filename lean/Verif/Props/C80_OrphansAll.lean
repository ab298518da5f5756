/-
C80: the entries of orphaned directories that a walk over an exFAT volume reports: all of them.
-/
import Verif.Props.C80_Orphans
namespace Verif.Props.ExFAT
open Verif.ExFAT Verif.Spec.ExFAT Volume

/-! ### What is remembered -/

theorem remember_self {e : FileEntry} {l l' : List Reallocated} (h : remember e l = .ok l') : e.firstCluster ∈ l'.map (·.firstCluster) := by
  induction l generalizing l' with
  | nil => unfold remember at h; cases h; simp
  | cons a l ih =>
    unfold remember at h
    split at h
    · rename_i ha
      split at h
      · cases h
        rw [List.map_cons, List.mem_cons]
        left
        split
        · rfl
        · exact ha.symm
      · cases h
    · cases hr : remember e l with
      | error x => rw [hr] at h; cases h
      | ok m =>
        rw [hr] at h
        cases h
        exact List.mem_cons_of_mem _ (ih hr)

/-- The first clusters that are remembered. -/
def keys (seen : Seen) : List Nat := seen.reallocated.map (·.firstCluster)

theorem subdirectory_effect {v : Volume} {scanReallocated : Bool} {e : FileEntry} {seen seen' : Seen} {r : Except Exc (Option Bytes)}
    (h : v.subdirectory scanReallocated e seen = (r, seen')) :
    keys seen ⊆ keys seen' ∧ (∀ o, r = .ok o → Remembered v scanReallocated e → e.firstCluster ∈ keys seen') ∧
    ∀ c ∈ seen'.visited, c ∈ seen.visited ∨ (c = e.firstCluster ∧ e.isDirectory = true ∧ ¬ Remembered v scanReallocated e) := by
  unfold Volume.subdirectory at h
  split at h
  · cases h
    exact ⟨fun _ h => h, (fun _ h => by cases h), fun _ h => .inl h⟩
  · rename_i ha
    cases h
    exact ⟨fun _ h => h, (fun _ _ hr => by rw [hr.2.2.2] at ha; cases ha), fun _ h => .inl h⟩
  rename_i allocated ha
  split at h
  · rename_i hd
    cases h
    exact ⟨fun _ h => h, (fun _ _ hr => by rw [hr.2.1] at hd; cases hd), fun _ h => .inl h⟩
  rename_i hd
  split at h
  · split at h
    · cases h
      exact ⟨fun _ h => h, (fun _ h => by cases h), fun _ h => .inl h⟩
    · rename_i l hl
      cases h
      exact ⟨fun c hc => remember_keys hl c hc, fun _ _ _ => remember_self hl, fun _ h => .inl h⟩
  rename_i hr
  have hn : ¬ Remembered v scanReallocated e := fun hm => hr ⟨hm.1, hm.2.2.1, by
    have := hm.2.2.2
    rw [ha] at this
    cases this
    rfl⟩
  have key : ∀ s : Seen, s = { seen with visited := seen.visited ++ [e.firstCluster] } →
      keys seen ⊆ keys s ∧ (∀ o, r = .ok o → Remembered v scanReallocated e → e.firstCluster ∈ keys s) ∧
      ∀ c ∈ s.visited, c ∈ seen.visited ∨ (c = e.firstCluster ∧ e.isDirectory = true ∧ ¬ Remembered v scanReallocated e) := by
    rintro s rfl
    refine ⟨fun _ h => h, fun _ _ hm => absurd hm hn, fun c hc => ?_⟩
    rcases List.mem_append.mp hc with hc | hc
    · exact .inl hc
    · exact .inr ⟨List.mem_singleton.mp hc, by simpa using hd, hn⟩
  dsimp only at h
  split at h
  · cases h; exact key _ rfl
  split at h <;> (cases h; exact key _ rfl)

/-- What holds of what was seen keeps to hold, if it does for the entries and for the directories that are entered. -/
theorem processEntries_holds {I : Seen → Prop} (v : Volume) (scanReallocated : Bool) (down : Nat → Bytes → Str → List Nat → Seen → Option Walk)
    (parent : Str) (base : List Nat) (items : List Item)
    (hS : ∀ e, .file e ∈ items → ¬ Loops base e → ∀ seen r seen', v.subdirectory scanReallocated e seen = (r, seen') → I seen → I seen')
    (hD : ∀ e buf, .file e ∈ items → ¬ Loops base e → Enters v scanReallocated e buf → ∀ seen g seen', I seen →
      down e.firstCluster buf (subName parent e) (e.firstCluster :: base) seen = some (g, seen') → I seen')
    (stack : List Nat) (prev : Option Nat) (seen : Seen) (hp : ∀ p, prev = some p → p ∉ base)
    (hst : stack = base ∨ ∃ p, prev = some p ∧ stack = p :: base) (hI : I seen) (g : Gen Item) (seen' : Seen)
    (h : v.processEntries scanReallocated down parent items stack prev seen = some (g, seen')) : I seen' := by
  induction items generalizing stack prev seen g seen' with
  | nil =>
    unfold Volume.processEntries at h
    cases h
    exact hI
  | cons item items ih =>
    replace ih := ih (fun e he => hS e (List.mem_cons_of_mem _ he)) (fun e buf he => hD e buf (List.mem_cons_of_mem _ he))
    cases item with
    | orphan name =>
      unfold Volume.processEntries at h
      split at h
      · cases h
      rename_i hr
      cases h
      exact ih _ _ _ hp hst hI _ _ hr
    | label name =>
      unfold Volume.processEntries at h
      split at h
      · cases h
      rename_i hr
      cases h
      exact ih _ _ _ hp hst hI _ _ hr
    | bitmap a b c =>
      unfold Volume.processEntries at h
      exact ih _ _ _ hp hst hI _ _ h
    | file e0 =>
      have hm : Item.file e0 ∈ Item.file e0 :: items := List.mem_cons_self ..
      unfold Volume.processEntries at h
      dsimp only at h
      rw [leave_base hp hst] at h
      by_cases hloop : Loops base e0
      · rw [if_pos ((guarded_iff e0 base).mpr hloop)] at h
        exact ih base prev seen hp (Or.inl rfl) hI _ _ h
      · rw [if_neg (fun hh => hloop ((guarded_iff e0 base).mp hh))] at h
        obtain ⟨hp', hst'⟩ := next_state (e := e0) hp hloop
        split at h
        · rename_i hsub
          cases h
          exact hS e0 hm hloop _ _ _ hsub hI
        · rename_i hsub
          split at h
          · cases h
          rename_i hr
          cases h
          exact ih _ _ _ hp' hst' (hS e0 hm hloop _ _ _ hsub hI) _ _ hr
        · rename_i buf0 seen1 hsub
          have hen := subdirectory_some hsub
          have hgd := enters_guard hen
          have hI1 := hS e0 hm hloop _ _ _ hsub hI
          rw [if_pos hgd] at hp' hst' h
          rw [if_pos hgd] at hst' h
          rw [subName_eq] at h
          split at h
          · cases h
          · rename_i hd
            cases h
            exact hD e0 buf0 hm hloop hen _ _ _ hI1 hd
          · rename_i hd
            split at h
            · cases h
            rename_i hr
            cases h
            exact ih _ _ _ hp' hst' (hD e0 buf0 hm hloop hen _ _ _ hI1 hd) _ _ hr

theorem processBuf_holds {I : Seen → Prop} {R : Str → List Nat → Bytes → Prop} (v : Volume) (scanReallocated : Bool)
    (hsub : ∀ name path buf e buf', R name path buf → .file e ∈ (listDirectory (decide (name = [])) buf).items →
      ¬ Loops path e → Enters v scanReallocated e buf' → R (subName name e) (e.firstCluster :: path) buf')
    (hS : ∀ name path buf e, R name path buf → .file e ∈ (listDirectory (decide (name = [])) buf).items →
      ¬ Loops path e → ∀ seen r seen', v.subdirectory scanReallocated e seen = (r, seen') → I seen → I seen')
    (fuel : Nat) (name : Str) (path : List Nat) (buf : Bytes) (hr : R name path buf) (seen : Seen) (hI : I seen) (g : Gen Item) (seen' : Seen)
    (h : v.processBuf scanReallocated fuel buf name path seen = some (g, seen')) : I seen' := by
  induction fuel generalizing name path buf seen g seen' with
  | zero => unfold Volume.processBuf at h; cases h
  | succ fuel ih =>
    unfold Volume.processBuf Volume.oneDirectory at h
    cases ho : openDirectory buf with
    | error e => rw [ho] at h; cases h; exact hI
    | ok _ =>
      rw [ho] at h
      dsimp only at h
      rw [← listing_root name buf ho] at h
      have key := processEntries_holds (I := I) v scanReallocated (fun _ => v.processBuf scanReallocated fuel) name path
        (listDirectory (decide (name = [])) buf).items (fun e he => hS name path buf e hr he)
        (fun e buf' he hl hen seen g seen' hI hd => ih _ _ buf' (hsub _ _ _ _ _ hr he hl hen) seen hI g seen' hd)
        path none seen (by simp) (Or.inl rfl) hI
      split at h
      · cases h
      · rename_i hp
        cases h
        exact key _ _ hp
      · rename_i hp
        cases h
        exact key _ _ hp

theorem processBuf_still {F : FileEntry → Seen → Prop} (v : Volume) (scanReallocated : Bool)
    (hkeep : ∀ e' seen r seen', v.subdirectory scanReallocated e' seen = (r, seen') → ∀ e, F e seen → F e seen')
    (fuel : Nat) (name : Str) (path : List Nat) (buf : Bytes) (seen : Seen)
    (g : Gen Item) (seen' : Seen) (h : v.processBuf scanReallocated fuel buf name path seen = some (g, seen')) (e : FileEntry) (hF : F e seen) : F e seen' :=
  processBuf_holds (I := F e) (R := fun _ _ _ => True) v scanReallocated (fun _ _ _ _ _ _ _ _ _ => trivial)
    (fun _ _ _ _ _ _ _ _ _ _ hs hF => hkeep _ _ _ _ hs e hF) fuel name path buf trivial seen hF g seen' h

/-- When the loop over the entries ends without an exception, every deleted directory whose first cluster is in use
again was remembered: what holds after that and keeps to hold holds then. -/
theorem processEntries_collected {F : FileEntry → Seen → Prop} (v : Volume) (scanReallocated : Bool)
    (hset : ∀ e seen o seen', v.subdirectory scanReallocated e seen = (.ok o, seen') → Remembered v scanReallocated e → F e seen')
    (hkeep : ∀ e' seen r seen', v.subdirectory scanReallocated e' seen = (r, seen') → ∀ e, F e seen → F e seen') (down : Nat → Bytes → Str → List Nat → Seen → Option Walk)
    (hD : ∀ c buf n p s g s', down c buf n p s = some (g, s') → ∀ e, F e s → F e s') (parent : Str) (base : List Nat) (items : List Item)
    (stack : List Nat) (prev : Option Nat) (seen : Seen) (hp : ∀ p, prev = some p → p ∉ base)
    (hst : stack = base ∨ ∃ p, prev = some p ∧ stack = p :: base) (g : Gen Item) (seen' : Seen)
    (h : v.processEntries scanReallocated down parent items stack prev seen = some (g, seen')) (hg : g.err = none) :
    (∀ e, .file e ∈ items → ¬ Loops base e → Remembered v scanReallocated e → F e seen') ∧
    ∀ e buf, .file e ∈ items → ¬ Loops base e → Enters v scanReallocated e buf → ∃ seen1 g1 seen2,
      down e.firstCluster buf (subName parent e) (e.firstCluster :: base) seen1 = some (g1, seen2) ∧ g1.err = none ∧
      ∀ e, F e seen2 → F e seen' := by
  have mono : ∀ items stack prev seen g seen', (∀ p, prev = some p → p ∉ base) → (stack = base ∨ ∃ p, prev = some p ∧ stack = p :: base) →
      v.processEntries scanReallocated down parent items stack prev seen = some (g, seen') → ∀ e, F e seen → F e seen' :=
    fun items stack prev seen g seen' hp hst h e hc => processEntries_holds (I := fun s => F e s) v scanReallocated down parent base items
      (fun _ _ _ _ _ _ hs hc => hkeep _ _ _ _ hs e hc) (fun _ _ _ _ _ _ _ _ hc hd => hD _ _ _ _ _ _ _ hd e hc)
      stack prev seen hp hst hc g seen' h
  induction items generalizing stack prev seen g seen' with
  | nil => exact ⟨(fun _ he => by cases he), fun _ _ he => by cases he⟩
  | cons item items ih =>
    cases item with
    | orphan name =>
      unfold Volume.processEntries at h
      split at h
      · cases h
      rename_i hr
      cases h
      obtain ⟨i1, i2⟩ := ih _ _ _ hp hst _ _ hr hg
      exact ⟨fun e he => i1 e (by simpa using he), fun e buf he => i2 e buf (by simpa using he)⟩
    | label name =>
      unfold Volume.processEntries at h
      split at h
      · cases h
      rename_i hr
      cases h
      obtain ⟨i1, i2⟩ := ih _ _ _ hp hst _ _ hr hg
      exact ⟨fun e he => i1 e (by simpa using he), fun e buf he => i2 e buf (by simpa using he)⟩
    | bitmap a b c =>
      unfold Volume.processEntries at h
      obtain ⟨i1, i2⟩ := ih _ _ _ hp hst _ _ h hg
      exact ⟨fun e he => i1 e (by simpa using he), fun e buf he => i2 e buf (by simpa using he)⟩
    | file e0 =>
      unfold Volume.processEntries at h
      dsimp only at h
      rw [leave_base hp hst] at h
      by_cases hloop : Loops base e0
      · rw [if_pos ((guarded_iff e0 base).mpr hloop)] at h
        obtain ⟨i1, i2⟩ := ih base prev seen hp (Or.inl rfl) _ _ h hg
        refine ⟨fun e he hl => ?_, fun e buf he hl => ?_⟩
        · rcases List.mem_cons.mp he with he | he
          · cases he; exact absurd hloop hl
          · exact i1 e he hl
        · rcases List.mem_cons.mp he with he | he
          · cases he; exact absurd hloop hl
          · exact i2 e buf he hl
      · rw [if_neg (fun hh => hloop ((guarded_iff e0 base).mp hh))] at h
        obtain ⟨hp', hst'⟩ := next_state (e := e0) hp hloop
        split at h
        · cases h; cases hg
        · rename_i hsub
          split at h
          · cases h
          rename_i hr
          cases h
          obtain ⟨i1, i2⟩ := ih _ _ _ hp' hst' _ _ hr hg
          refine ⟨fun e he hl hrem => ?_, fun e buf he hl hen => ?_⟩
          · rcases List.mem_cons.mp he with he | he
            · cases he
              exact mono _ _ _ _ _ _ hp' hst' hr _ (hset _ _ _ _ hsub hrem)
            · exact i1 e he hl hrem
          · rcases List.mem_cons.mp he with he | he
            · cases he
              obtain ⟨s, hs⟩ := subdirectory_enters hen seen
              rw [hs] at hsub; cases hsub
            · exact i2 e buf he hl hen
        · rename_i buf0 seen1 hsub
          have hgd := enters_guard (subdirectory_some hsub)
          rw [if_pos hgd] at hp' hst' h
          rw [if_pos hgd] at hst' h
          rw [subName_eq] at h
          split at h
          · cases h
          · cases h; cases hg
          · rename_i hd
            split at h
            · cases h
            rename_i hr
            cases h
            have hm := mono _ _ _ _ _ _ hp' hst' hr
            obtain ⟨i1, i2⟩ := ih _ _ _ hp' hst' _ _ hr hg
            refine ⟨fun e he hl hrem => ?_, fun e buf he hl hen => ?_⟩
            · rcases List.mem_cons.mp he with he | he
              · cases he
                exact hm _ (hD _ _ _ _ _ _ _ hd _ (hset _ _ _ _ hsub hrem))
              · exact i1 e he hl hrem
            · rcases List.mem_cons.mp he with he | he
              · cases he
                obtain ⟨s, hs⟩ := subdirectory_enters hen seen
                rw [hs] at hsub
                cases hsub
                exact ⟨_, _, _, hd, rfl, hm⟩
              · exact i2 e buf he hl hen

theorem processBuf_collected {F : FileEntry → Seen → Prop} (v : Volume) (scanReallocated : Bool)
    (hset : ∀ e seen o seen', v.subdirectory scanReallocated e seen = (.ok o, seen') → Remembered v scanReallocated e → F e seen')
    (hkeep : ∀ e' seen r seen', v.subdirectory scanReallocated e' seen = (r, seen') → ∀ e, F e seen → F e seen') (fuel : Nat) (name : Str) (path : List Nat) (buf : Bytes) (seen : Seen)
    (g : Gen Item) (seen' : Seen) (h : v.processBuf scanReallocated fuel buf name path seen = some (g, seen')) (hg : g.err = none) :
    (∀ e, .file e ∈ (listDirectory (decide (name = [])) buf).items → ¬ Loops path e → Remembered v scanReallocated e →
      F e seen') ∧
    ∀ e buf', .file e ∈ (listDirectory (decide (name = [])) buf).items → ¬ Loops path e → Enters v scanReallocated e buf' →
      ∃ fuel' seen1 g1 seen2, v.processBuf scanReallocated fuel' buf' (subName name e) (e.firstCluster :: path) seen1 = some (g1, seen2) ∧
        g1.err = none ∧ ∀ e, F e seen2 → F e seen' := by
  cases fuel with
  | zero => unfold Volume.processBuf at h; cases h
  | succ fuel =>
    unfold Volume.processBuf Volume.oneDirectory at h
    cases ho : openDirectory buf with
    | error e => rw [ho] at h; cases h; cases hg
    | ok _ =>
      rw [ho] at h
      dsimp only at h
      rw [← listing_root name buf ho] at h
      cases hp : v.processEntries scanReallocated (fun _ => v.processBuf scanReallocated fuel) name
          (listDirectory (decide (name = [])) buf).items path none seen with
      | none => rw [hp] at h; cases h
      | some w =>
        obtain ⟨⟨its, err⟩, seen2⟩ := w
        rw [hp] at h
        cases err with
        | some e => cases h; cases hg
        | none =>
          cases h
          obtain ⟨a1, a2⟩ := processEntries_collected v scanReallocated hset hkeep _
            (fun _ buf n p s g s' hd => processBuf_still v scanReallocated hkeep fuel n p buf s g s' hd) name path _ path none seen (by simp)
            (Or.inl rfl) _ _ hp rfl
          exact ⟨a1, fun e buf' he hl hen => ⟨fuel, a2 e buf' he hl hen⟩⟩

/-- When a walk from the root has ended without an exception, every deleted directory that can be reached and whose first cluster is in use again
was remembered. -/
theorem root_collected {F : FileEntry → Seen → Prop} (v : Volume) (scanReallocated : Bool)
    (hset : ∀ e seen o seen', v.subdirectory scanReallocated e seen = (.ok o, seen') → Remembered v scanReallocated e → F e seen')
    (hkeep : ∀ e' seen r seen', v.subdirectory scanReallocated e' seen = (r, seen') → ∀ e, F e seen → F e seen')
    (depth : Nat) (root : Bytes) (hb : v.readChain v.br.firstClusterOfRootDirectory none false = .ok root) (seen0 seen : Seen) (its : List Item)
    (hp : v.processBuf scanReallocated depth root [] [v.br.firstClusterOfRootDirectory] seen0 = some (⟨its, none⟩, seen))
    (name : Str) (path : List Nat) (buf : Bytes) (hr : Reached v scanReallocated false name path buf) (e : FileEntry)
    (he : .file e ∈ (listDirectory (decide (name = [])) buf).items) (hl : ¬ Loops path e) (hrem : Remembered v scanReallocated e) : F e seen := by
  have hcol : ∃ fuel s1 g1 s2, v.processBuf scanReallocated fuel buf name path s1 = some (g1, s2) ∧ g1.err = none ∧ ∀ e, F e s2 → F e seen := by
    clear he hl
    induction hr with
    | root hb' =>
      rw [hb] at hb'
      cases hb'
      exact ⟨depth, _, _, _, hp, rfl, fun _ h => h⟩
    | sub _ he hl hen ih =>
      obtain ⟨fuel, s1, g1, s2, h1, h2, h3⟩ := ih
      obtain ⟨fuel', s3, g2, s4, b1, b2, b3⟩ := (processBuf_collected v scanReallocated hset hkeep fuel _ _ _ s1 g1 s2 h1 h2).2 _ _ he hl hen
      exact ⟨fuel', s3, g2, s4, b1, b2, fun e he => h3 e (b3 e he)⟩
    | orphan h => cases h
  obtain ⟨fuel, s1, g1, s2, q1, q2, q3⟩ := hcol
  exact q3 e ((processBuf_collected v scanReallocated hset hkeep fuel _ _ _ s1 g1 s2 q1 q2).1 e he hl hrem)

/-- What is kept while a directory is walked that can be reached. -/
theorem processBuf_knows {K : List Nat} (v : Volume) (scanReallocated : Bool) (fuel : Nat) (name : Str) (path : List Nat) (buf : Bytes)
    (hr : Reached v scanReallocated true name path buf) (seen : Seen) (hk : Knows (Source v scanReallocated) K seen) (g : Gen Item) (seen' : Seen)
    (h : v.processBuf scanReallocated fuel buf name path seen = some (g, seen')) : Knows (Source v scanReallocated) K seen' :=
  (processBuf_keeps (E := fun _ => True) v scanReallocated (fun _ _ _ _ _ _ => trivial) (fun _ _ _ _ _ _ _ _ _ _ _ => trivial)
    fuel name path buf hr seen hk g seen' h).1

theorem orphans_all {K : List Nat} (v : Volume) (scanReallocated : Bool) (fuel : Nat) (l : List Nat)
    (seen : Seen) (hk : Knows (Source v scanReallocated) K seen) (g : Gen Item) (seen' : Seen)
    (h : v.orphans (v.processBuf scanReallocated fuel) l seen = some (g, seen')) (hg : g.err = none)
    (c : Nat) (start : Bytes) (hc : c ∈ l)
    (hb : ∀ r, Source v scanReallocated r → r.firstCluster = c → v.readChain c (some r.size) r.noFatChain = .ok start) (h1 : 512 ≤ start.length)
    (h2 : u8 start 0 = 0x05) (h3 : u8 start 32 = 0x40) (h4 : u8 start 64 = 0x41) :
    ∃ s1 g1 s2, v.processBuf scanReallocated fuel start (orphanPath c) [] s1 = some (g1, s2) ∧ g1.err = none ∧ ∀ x ∈ g1.items, x ∈ g.items := by
  induction l generalizing seen g seen' with
  | nil => cases hc
  | cons c0 l ih =>
    unfold Volume.orphans at h
    split at h
    · cases h; cases hg
    rename_i r hf
    have hsrc := hk.1 r (List.mem_of_find?_eq_some hf)
    have hrc : r.firstCluster = c0 := by simpa using List.find?_some hf
    rcases List.mem_cons.mp hc with rfl | hc
    · rw [hb r hsrc hrc] at h
      dsimp only at h
      rw [if_neg (by omega)] at h
      split at h
      · cases h
      · cases h; cases hg
      · rename_i hp
        split at h
        · cases h
        cases h
        exact ⟨_, _, _, hp, rfl, fun x hx => List.mem_append_left _ hx⟩
    · replace ih := fun seen hk g seen' h hg => ih seen hk g seen' h hg hc
      split at h
      · split at h
        · exact ih _ hk _ _ h hg
        · cases h; cases hg
      rename_i buf hbuf
      split at h
      · exact ih _ hk _ _ h hg
      rename_i hsig
      split at h
      · cases h
      · cases h; cases hg
      · rename_i hp
        split at h
        · cases h
        rename_i hq
        cases h
        obtain ⟨n, p, b, e, hreach, he, hrem, hre⟩ := hsrc
        have hec : e.firstCluster = c0 := by rw [← hrc, hre]; rfl
        have hor : Orphaned v e buf := by
          refine ⟨hrem.2.1, hrem.2.2.1, hrem.2.2.2, ?_, by omega, by omega, by omega, by omega⟩
          rw [hec, ← hbuf, hre]
          rfl
        have hr' : Reached v scanReallocated true (orphanPath c0) [] buf := by
          rw [orphanPath_eq, ← hec]
          exact .orphan rfl hrem.1 hreach he hor
        obtain ⟨s1, g1, s2, a, b, d⟩ := ih _ (processBuf_knows v scanReallocated fuel _ _ _ hr' _ hk _ _ hp) _ _ hq hg
        exact ⟨s1, g1, s2, a, b, fun x hx => List.mem_append_right _ (d x hx)⟩

/-- The deleted directory of an entry that can be reached from the root; its first cluster is in use again, but no entry that can be reached
from the root and is not deleted is one of a directory that begins there. -/
def Forgotten (v : Volume) (scanReallocated : Bool) (c : Nat) : Prop :=
  scanReallocated = false ∧
  (∃ name path buf e, Reached v scanReallocated false name path buf ∧ .file e ∈ (listDirectory (decide (name = [])) buf).items ∧
    ¬ Loops path e ∧ e.isDirectory = true ∧ e.isDeleted = true ∧ v.bitmap.isAllocated e.firstCluster = .ok (some true) ∧ c = e.firstCluster) ∧
  ∀ name path buf e, Reached v scanReallocated false name path buf → .file e ∈ (listDirectory (decide (name = [])) buf).items →
    ¬ Loops path e → e.isDirectory = true → e.isDeleted = false → e.firstCluster ≠ c

/-- The clusters `start` are those of all the deleted entries for a directory that begins at the cluster `c` (there may be several, for they
can have different sizes). -/
def Contents (v : Volume) (scanReallocated : Bool) (c : Nat) (start : Bytes) : Prop :=
  ∀ name path buf e, Reached v scanReallocated true name path buf → .file e ∈ (listDirectory (decide (name = [])) buf).items →
    e.isDirectory = true → e.isDeleted = true → e.firstCluster = c → v.readChain c (some e.size) e.noFatChain = .ok start

/-- C80, about orphaned directories: when a walk ends without an exception, every entry was reported that is in a deleted directory whose first
cluster is in use again, but not by a directory that can be reached, if this still begins with a deleted file. -/
theorem C80_orphans_complete (v : Volume) (scanReallocated : Bool) (order : List Nat → List Nat)
    (horder : ∀ l, ∀ c ∈ l, c ∈ order l) (depth : Nat) (g : Gen Item) (h : v.walk scanReallocated order depth = some g) (hg : g.err = none)
    (c : Nat) (start : Bytes) (hc : Forgotten v scanReallocated c) (hstart : Contents v scanReallocated c start) (h512 : 512 ≤ start.length)
    (h0 : u8 start 0 = 0x05) (h32 : u8 start 32 = 0x40) (h64 : u8 start 64 = 0x41)
    (name : Str) (path : List Nat) (buf : Bytes) (hr : Below v scanReallocated c start name path buf) (item : Item)
    (hi : item ∈ (listDirectory (decide (name = [])) buf).items) (x : Item) (hx : Reports name path item x) : x ∈ g.items := by
  unfold Volume.walk Volume.walkWith at h
  dsimp only at h
  cases hb : v.readChain v.br.firstClusterOfRootDirectory none false with
  | error x => rw [hb] at h; cases h; cases hg
  | ok buf0 =>
    rw [hb] at h
    dsimp only at h
    cases hp : v.processBuf scanReallocated depth buf0 [] [v.br.firstClusterOfRootDirectory] ⟨[], []⟩ with
    | none => rw [hp] at h; cases h
    | some w =>
      obtain ⟨⟨its, err⟩, seen⟩ := w
      rw [hp] at h
      cases err with
      | some y => cases h; cases hg
      | none =>
        dsimp only at h
        have hk := processBuf_knows (K := []) v scanReallocated depth _ _ _ (.root hb) ⟨[], []⟩ ⟨(fun r hr => by cases hr), fun c hc => by cases hc⟩ _ _ hp
        obtain ⟨hscan, ⟨n, p, b, e, m1, m2, m3, m4, m5, m6, m7⟩, hother⟩ := hc
        have halloc : v.bitmap.isAllocated c = .ok (some true) := by rw [m7]; exact m6
        -- no directory that was entered begins there
        have hnot : c ∉ seen.visited := by
          refine processBuf_holds (I := fun s => c ∉ s.visited) (R := Reached v scanReallocated false) v scanReallocated
            (fun _ _ _ _ _ => .sub) ?_ depth _ _ _ (.root hb) ⟨[], []⟩ (fun h => by cases h) _ _ hp
          intro name path buf e hr he hl s r s' hs hcs hm
          rcases (subdirectory_effect hs).2.2 c hm with hm | ⟨hm, hd, hn⟩
          · exact hcs hm
          · refine hother name path buf e hr he hl hd ?_ hm.symm
            refine Bool.eq_false_iff.mpr fun hdel => hn ⟨hscan, hd, hdel, by rw [← hm]; exact halloc⟩
        -- and it was remembered
        have hin : c ∈ keys seen := by
          rw [m7]
          exact root_collected (F := fun e s => e.firstCluster ∈ keys s) v scanReallocated (fun e _ _ _ hs hrem => (subdirectory_effect hs).2.1 _ rfl hrem)
            (fun _ _ _ _ hs _ hc => (subdirectory_effect hs).1 hc) depth buf0 hb _ seen its hp n p b m1 e m2 m3 ⟨hscan, m4, m5, m6⟩
        cases hq : v.orphans (v.processBuf scanReallocated depth) (order ((seen.reallocated.map (·.firstCluster)).filter (· ∉ seen.visited))) seen with
        | none => rw [hq] at h; cases h
        | some w =>
          rw [hq] at h
          cases h
          obtain ⟨s1, g1, s2, q1, q2, q3⟩ := orphans_all v scanReallocated depth _ seen hk _ _ hq hg c start
            (horder _ c (List.mem_filter.mpr ⟨hin, by simpa using hnot⟩))
            (by
              rintro r ⟨n, p, b, e, hreach, he, hrem, rfl⟩ hrc
              exact hstart n p b e hreach he hrem.2.1 hrem.2.2.1 hrc) h512 h0 h32 h64
          have key : ∃ fuel s1 g1 s2, v.processBuf scanReallocated fuel buf name path s1 = some (g1, s2) ∧ g1.err = none ∧
              ∀ x ∈ g1.items, x ∈ w.1.items := by
            clear hi hx
            induction hr with
            | self => exact ⟨depth, s1, g1, s2, by rw [← orphanPath_eq]; exact q1, q2, q3⟩
            | sub _ he hl hen ih =>
              obtain ⟨fuel, s3, g3, s4, r1, r2, r3⟩ := ih
              obtain ⟨fuel', s5, g4, s6, t1, t2, t3⟩ := (processBuf_all v scanReallocated fuel _ _ _ s3 g3 s4 r1 r2).2 _ _ he hl hen
              exact ⟨fuel', s5, g4, s6, t1, t2, fun x hx => r3 x (t3 x hx)⟩
          obtain ⟨fuel, s3, g3, s4, r1, r2, r3⟩ := key
          exact List.mem_append_right _ (r3 x ((processBuf_all v scanReallocated fuel _ _ _ s3 g3 s4 r1 r2).1 item hi x hx))

/-- All directories in these clusters are the one that begins at the cluster `c`. -/
def onlyOne (v : Volume) (c : Nat) (start : Bytes) (isRoot : Bool) (buf : Bytes) : Bool :=
  (listDirectory isRoot buf).items.all fun
    | .file e => !e.isDirectory || decide (e.firstCluster = c) && match v.readChain c (some e.size) e.noFatChain with
      | .error _ => false
      | .ok b => decide (b = start)
    | _ => true

theorem onlyOne_file {v : Volume} {c : Nat} {start buf : Bytes} {isRoot : Bool} (h : onlyOne v c start isRoot buf = true) {e : FileEntry}
    (he : .file e ∈ (listDirectory isRoot buf).items) (hd : e.isDirectory = true) :
    e.firstCluster = c ∧ v.readChain c (some e.size) e.noFatChain = .ok start := by
  have := List.all_eq_true.mp h _ he
  dsimp only at this
  rw [hd] at this
  simp only [Bool.not_true, Bool.false_or, Bool.and_eq_true, decide_eq_true_eq] at this
  obtain ⟨h1, h2⟩ := this
  refine ⟨h1, ?_⟩
  split at h2
  · cases h2
  · rename_i hb
    rw [hb, of_decide_eq_true h2]

/-- What the hypotheses of `C80_orphans_complete` ask for, for a volume with one directory. -/
def orphanCase (v : Volume) (c : Nat) (start : Bytes) (entry : Str) : Bool :=
  (match v.readChain v.br.firstClusterOfRootDirectory none false with
    | .error _ => false
    | .ok root => onlyOne v c start true root && onlyOne v c start false root && onlyOne v c start true start && onlyOne v c start false start &&
      ((listDirectory true root).items.all fun
        | .file e => e.isDirectory && e.isDeleted
        | _ => true) &&
      (listDirectory true root).items.any fun
        | .file _ => true
        | _ => false) &&
  decide (v.bitmap.isAllocated c = .ok (some true)) && decide (c ≠ v.br.firstClusterOfRootDirectory) &&
  decide (512 ≤ start.length) && decide (u8 start 0 = 0x05) && decide (u8 start 32 = 0x40) && decide (u8 start 64 = 0x41) &&
  (listDirectory false start).items.any fun
    | .file e => decide (e.name = entry)
    | _ => false

theorem orphanCase_meets {v : Volume} {c : Nat} {start : Bytes} {entry : Str} (h : orphanCase v c start entry = true) :
    Forgotten v false c ∧ Contents v false c start ∧ 512 ≤ start.length ∧ u8 start 0 = 0x05 ∧ u8 start 32 = 0x40 ∧ u8 start 64 = 0x41 ∧
      ∃ e, .file e ∈ (listDirectory false start).items ∧ e.name = entry := by
  unfold orphanCase at h
  simp only [Bool.and_eq_true, decide_eq_true_eq] at h
  obtain ⟨⟨⟨⟨⟨⟨⟨h1, h2⟩, h3⟩, h4⟩, h5⟩, h6⟩, h7⟩, h8⟩ := h
  split at h1
  · cases h1
  rename_i root hroot
  simp only [Bool.and_eq_true] at h1
  obtain ⟨⟨⟨⟨⟨o1, o2⟩, o3⟩, o4⟩, hall⟩, hany⟩ := h1
  have hboth : ∀ isRoot buf, buf = root ∨ buf = start → onlyOne v c start isRoot buf = true := by
    intro isRoot buf hb
    rcases hb with rfl | rfl <;> cases isRoot <;> assumption
  have hin : ∀ b name path buf, Reached v false b name path buf → buf = root ∨ buf = start := by
    intro b name path buf hr
    induction hr with
    | root hb => rw [hroot] at hb; cases hb; exact .inl rfl
    | sub _ he _ hen ih =>
      obtain ⟨f1, f2⟩ := onlyOne_file (hboth _ _ ih) he hen.1
      have := hen.2.2.1
      rw [f1, f2] at this
      cases this
      exact .inr rfl
    | orphan _ _ _ he hor ih =>
      obtain ⟨f1, f2⟩ := onlyOne_file (hboth _ _ ih) he hor.1
      have := hor.2.2.2.1
      rw [f1, f2] at this
      cases this
      exact .inr rfl
  have hdel : ∀ e, .file e ∈ (listDirectory true root).items → e.isDirectory = true ∧ e.isDeleted = true := fun e he => by
    simpa using List.all_eq_true.mp hall _ he
  have hrootonly : ∀ name path buf, Reached v false false name path buf → name = [] ∧ buf = root := by
    intro name path buf hr
    induction hr with
    | root hb => rw [hroot] at hb; cases hb; exact ⟨rfl, rfl⟩
    | sub _ he _ hen ih =>
      obtain ⟨rfl, rfl⟩ := ih
      have hd := hdel _ he
      obtain ⟨f1, _⟩ := onlyOne_file o1 he hd.1
      obtain ⟨a, ha, ha'⟩ := hen.2.1
      rw [f1, h2] at ha
      cases ha
      exact absurd (ha' rfl hd.2) (by simp)
    | orphan h => cases h
  refine ⟨⟨rfl, ?_, ?_⟩, ?_, h4, h5, h6, h7, ?_⟩
  · obtain ⟨item, hi, hi'⟩ := List.any_eq_true.mp hany
    split at hi'
    · rename_i e
      have hd := hdel e hi
      obtain ⟨f1, _⟩ := onlyOne_file o1 hi hd.1
      exact ⟨[], _, root, e, .root hroot, hi, fun hl => h3 (by rw [← f1]; simpa using hl.2.2), hd.1, hd.2, by rw [f1]; exact h2, f1.symm⟩
    · cases hi'
  · intro name path buf e hr he _ _ hn
    obtain ⟨rfl, rfl⟩ := hrootonly name path buf hr
    rw [(hdel e he).2] at hn
    cases hn
  · intro name path buf e hr he hd _ _
    exact (onlyOne_file (hboth _ _ (hin _ _ _ _ hr)) he hd).2
  · obtain ⟨item, hi, hi'⟩ := List.any_eq_true.mp h8
    split at hi'
    · exact ⟨_, hi, of_decide_eq_true hi'⟩
    · cases hi'

/-- The hypotheses of `C80_orphans_complete` are met by the orphaned directory in cluster 4 of the volume above, and its entry `X`. -/
example : ∃ v g start e, openVolume orphanVolume 0 none = .ok v ∧ v.walk false id 8 = some g ∧ g.err = none ∧ Forgotten v false 4 ∧
    Contents v false 4 start ∧ 512 ≤ start.length ∧ u8 start 0 = 0x05 ∧ u8 start 32 = 0x40 ∧ u8 start 64 = 0x41 ∧
    Below v false 4 start (Str.ofString "<Orphan directory 4>") [] start ∧ .file e ∈ (listDirectory false start).items ∧ e.name = Str.ofString "X" := by
  have h : (match openAfter orphanVolume with
    | .error _ => false
    | .ok v => match v.readChain 4 (some 512) false with
      | .error _ => false
      | .ok start => orphanCase v 4 start (Str.ofString "X") && match v.walk false id 8 with
        | none => false
        | some g => g.err.isNone) = true := by
    decide +kernel
  split at h
  · cases h
  rename_i v hv
  split at h
  · cases h
  rename_i start _
  obtain ⟨h1, h2⟩ := Bool.and_eq_true _ _ ▸ h
  split at h2
  · cases h2
  rename_i g hg
  obtain ⟨a1, a2, a3, a4, a5, a6, e, a7, a8⟩ := orphanCase_meets h1
  refine ⟨v, g, start, e, ?_, hg, by simpa using h2, a1, a2, a3, a4, a5, a6, .self, a7, a8⟩
  unfold orphanVolume at hv ⊢
  rw [open_tiny _ _ _ (by decide +kernel) (by decide +kernel) (by decide +kernel), hv]

end Verif.Props.ExFAT
