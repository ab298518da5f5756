/-
C80: what a walk over an exFAT volume reports.  C73: what can stop it.
-/
import Verif.Props.ExFATSample
namespace Verif.Props.ExFAT
open Verif.ExFAT Verif.Spec.ExFAT Volume

/-! ### Paths -/

theorem withSeparator_joined (parent name : Str) : FAT.withSeparator parent ++ name = joined parent name := by
  unfold FAT.withSeparator joined
  have hc : '/'.toNat = 0x2F := rfl
  have hs : Str.ofString "/" = [0x2F] := by decide
  rw [hc, hs]
  by_cases h0 : parent = []
  · subst h0; rfl
  · have h1 : parent.length > 0 := List.length_pos_iff.mpr h0
    by_cases h2 : parent.getLast? = some 0x2F
    · rw [if_neg (fun h => h.2 h2), if_neg (by omega), if_pos h2]
    · rw [if_pos ⟨h1, h2⟩, if_neg h2]

theorem orphanPath_eq (n : Nat) : orphanPath n = Str.ofString s!"<Orphan directory {n}>" := by
  unfold Verif.ExFAT.Volume.orphanPath Verif.FAT.Volume.decimal Str.ofString
  simp [toString, Nat.repr]

theorem listing_root (name : Str) (buf : Bytes) (h : openDirectory buf = .ok ()) :
    listDirectory (decide (name = [])) buf = entries (decide (name.length = 0)) buf := by
  unfold listDirectory
  rw [h]
  simp only [List.length_eq_zero_iff]

/-! ### One directory -/

/-- What is remembered of a deleted directory. -/
def memory (e : FileEntry) : Reallocated := ⟨e.firstCluster, e.mtime, e.size, e.noFatChain⟩

/-- Everything that is remembered has a property, and there is something for each of some clusters. -/
def Knows (P : Reallocated → Prop) (K : List Nat) (seen : Seen) : Prop :=
  (∀ r ∈ seen.reallocated, P r) ∧ ∀ c ∈ K, c ∈ seen.reallocated.map (·.firstCluster)

/-- A deleted directory that is remembered. -/
def Remembered (v : Volume) (scanReallocated : Bool) (e : FileEntry) : Prop :=
  scanReallocated = false ∧ e.isDirectory = true ∧ e.isDeleted = true ∧ v.bitmap.isAllocated e.firstCluster = .ok (some true)

theorem remember_mem {e : FileEntry} {l l' : List Reallocated} (h : remember e l = .ok l') : ∀ r ∈ l', r ∈ l ∨ r = memory e := by
  induction l generalizing l' with
  | nil => unfold remember at h; cases h; simp [memory]
  | cons a l ih =>
    unfold remember at h
    split at h
    · split at h
      · cases h
        intro r hr
        rcases List.mem_cons.mp hr with rfl | hr
        · split
          · exact Or.inr rfl
          · exact Or.inl (by simp)
        · exact Or.inl (by simp [hr])
      · cases h
    · cases hr : remember e l with
      | error x => rw [hr] at h; cases h
      | ok m =>
        rw [hr] at h
        cases h
        intro r hrm
        rcases List.mem_cons.mp hrm with rfl | hrm
        · exact Or.inl (by simp)
        · rcases ih hr r hrm with h | h
          · exact Or.inl (by simp [h])
          · exact Or.inr h

theorem remember_keys {e : FileEntry} {l l' : List Reallocated} (h : remember e l = .ok l') :
    ∀ c ∈ l.map (·.firstCluster), c ∈ l'.map (·.firstCluster) := by
  induction l generalizing l' with
  | nil => simp
  | cons a l ih =>
    unfold remember at h
    split at h
    · rename_i ha
      split at h
      · cases h
        intro c hc
        rw [List.map_cons, List.mem_cons] at hc ⊢
        rcases hc with rfl | hc
        · left
          split
          · exact ha
          · rfl
        · exact Or.inr hc
      · cases h
    · cases hr : remember e l with
      | error x => rw [hr] at h; cases h
      | ok m =>
        rw [hr] at h
        cases h
        intro c hc
        rw [List.map_cons, List.mem_cons] at hc ⊢
        rcases hc with rfl | hc
        · exact Or.inl rfl
        · exact Or.inr (ih hr c hc)

theorem subdirectory_knows {P : Reallocated → Prop} {K : List Nat} {v : Volume} {scanReallocated : Bool} {e : FileEntry} {seen seen' : Seen} {r : Except Exc (Option Bytes)}
    (hk : Knows P K seen) (hP : Remembered v scanReallocated e → P (memory e)) (h : v.subdirectory scanReallocated e seen = (r, seen')) : Knows P K seen' := by
  unfold Volume.subdirectory at h
  split at h
  · cases h; exact hk
  · cases h; exact hk
  rename_i allocated ha
  split at h
  · cases h; exact hk
  rename_i hd
  split at h
  · rename_i hr
    split at h
    · cases h; exact hk
    · rename_i l hl
      cases h
      refine ⟨?_, fun c hc => remember_keys hl c (hk.2 c hc)⟩
      intro r hm
      rcases remember_mem hl r hm with h | h
      · exact hk.1 r h
      · rw [h]
        exact hP ⟨hr.1, by simpa using hd, hr.2.1, by rw [ha, hr.2.2]⟩
  dsimp only at h
  split at h
  · cases h; exact hk
  split at h <;> (cases h; exact hk)

/-- An entered directory is entered whatever was seen before. -/
theorem subdirectory_enters {v : Volume} {scanReallocated : Bool} {e : FileEntry} {buf : Bytes} (h : Enters v scanReallocated e buf) (seen : Seen) :
    ∃ seen', v.subdirectory scanReallocated e seen = (.ok (some buf), seen') := by
  obtain ⟨hd, ⟨allocated, ha, hr⟩, hb, hne⟩ := h
  unfold Volume.subdirectory
  rw [ha]
  dsimp only
  rw [if_neg (by simp [hd])]
  rw [if_neg (fun ⟨h1, h2, h3⟩ => by rw [hr h1 h2] at h3; cases h3)]
  rw [hb]
  dsimp only
  rw [if_neg (by simpa using hne)]
  exact ⟨_, rfl⟩

theorem leave_base {prev : Option Nat} {stack base : List Nat} (hp : ∀ p, prev = some p → p ∉ base)
    (hst : stack = base ∨ ∃ p, prev = some p ∧ stack = p :: base) : Volume.leave prev stack = base := by
  unfold Volume.leave
  cases prev with
  | none =>
    rcases hst with h | ⟨p, hp', _⟩
    · exact h
    · cases hp'
  | some p =>
    dsimp only
    rcases hst with h | ⟨q, hq, h⟩
    · rw [h]; exact List.erase_of_not_mem (hp p rfl)
    · cases hq; rw [h]; simp

/-- The state of the loop after an entry that is not on the path. -/
theorem next_state {prev : Option Nat} {base : List Nat} {e : FileEntry} (hp : ∀ p, prev = some p → p ∉ base) (hloop : ¬ Loops base e) :
    (∀ p, (if (e.isDirectory && decide (e.firstCluster ≠ 0)) = true then some e.firstCluster else prev) = some p → p ∉ base) ∧
    ((if (e.isDirectory && decide (e.firstCluster ≠ 0)) = true then e.firstCluster :: base else base) = base ∨
      ∃ p, (if (e.isDirectory && decide (e.firstCluster ≠ 0)) = true then some e.firstCluster else prev) = some p ∧
        (if (e.isDirectory && decide (e.firstCluster ≠ 0)) = true then e.firstCluster :: base else base) = p :: base) := by
  rw [← guarded_iff] at hloop
  generalize (e.isDirectory && decide (e.firstCluster ≠ 0)) = g at hloop ⊢
  cases g with
  | false => exact ⟨hp, Or.inl rfl⟩
  | true =>
    refine ⟨?_, Or.inr ⟨_, rfl, rfl⟩⟩
    intro p h
    cases h
    exact fun hm => hloop ⟨rfl, hm⟩

theorem enters_guard {v : Volume} {scanReallocated : Bool} {e : FileEntry} {buf : Bytes} (h : Enters v scanReallocated e buf) :
    (e.isDirectory && decide (e.firstCluster ≠ 0)) = true := by
  have := enters_le h
  rw [h.1]
  simp
  omega

/-- The path of a subdirectory. -/
def subName (parent : Str) (e : FileEntry) : Str := parent ++ Str.ofString "/" ++ e.name

theorem subName_eq (parent : Str) (e : FileEntry) : parent ++ [0x2F] ++ e.name = subName parent e := by
  unfold subName
  rw [show Str.ofString "/" = [0x2F] by decide]

/-- What the loop over the entries keeps: everything it yields has the property `Q`, its exceptions have the property
`E`, and what it remembers the property `P`. -/
theorem processEntries_keeps {P : Reallocated → Prop} {K : List Nat} {Q : Item → Prop} {E : Exc → Prop} (v : Volume) (scanReallocated : Bool)
    (down : Nat → Bytes → Str → List Nat → Seen → Option Walk) (parent : Str) (base : List Nat) (items : List Item)
    (hQ : ∀ item ∈ items, ∀ x, Reports parent base item x → Q x)
    (hP : ∀ e, .file e ∈ items → Remembered v scanReallocated e → P (memory e))
    (hE : ∀ e, .file e ∈ items → ∀ seen, Knows P K seen → ∀ x seen', v.subdirectory scanReallocated e seen = (.error x, seen') → E x)
    (hD : ∀ e buf, .file e ∈ items → ¬ Loops base e → Enters v scanReallocated e buf → ∀ seen g seen', Knows P K seen →
      down e.firstCluster buf (subName parent e) (e.firstCluster :: base) seen = some (g, seen') →
      Knows P K seen' ∧ (∀ x ∈ g.items, Q x) ∧ ∀ x, g.err = some x → E x)
    (stack : List Nat) (prev : Option Nat) (seen : Seen) (hp : ∀ p, prev = some p → p ∉ base)
    (hst : stack = base ∨ ∃ p, prev = some p ∧ stack = p :: base) (hk : Knows P K seen) (g : Gen Item) (seen' : Seen)
    (h : v.processEntries scanReallocated down parent items stack prev seen = some (g, seen')) :
    Knows P K seen' ∧ (∀ x ∈ g.items, Q x) ∧ ∀ x, g.err = some x → E x := by
  induction items generalizing stack prev seen g seen' with
  | nil =>
    unfold Volume.processEntries at h
    cases h
    exact ⟨hk, (fun x hx => by cases hx), fun x hx => by cases hx⟩
  | cons item items ih =>
    replace ih := ih (fun i hi => hQ i (by simp [hi])) (fun e he => hP e (by simp [he])) (fun e he => hE e (by simp [he]))
      (fun e buf he => hD e buf (by simp [he]))
    have hQ0 := hQ item (by simp)
    cases item with
    | orphan name =>
      unfold Volume.processEntries at h
      cases hr : v.processEntries scanReallocated down parent items stack prev seen with
      | none => rw [hr] at h; cases h
      | some w =>
        rw [hr] at h
        cases h
        obtain ⟨i1, i2, i3⟩ := ih stack prev seen hp hst hk _ _ hr
        refine ⟨i1, ?_, i3⟩
        intro x hx
        rcases List.mem_cons.mp hx with rfl | hx
        · exact hQ0 _ (by unfold expandPath; dsimp only; rw [withSeparator_joined]; rfl)
        · exact i2 x hx
    | label name =>
      unfold Volume.processEntries at h
      cases hr : v.processEntries scanReallocated down parent items stack prev seen with
      | none => rw [hr] at h; cases h
      | some w =>
        rw [hr] at h
        cases h
        obtain ⟨i1, i2, i3⟩ := ih stack prev seen hp hst hk _ _ hr
        refine ⟨i1, ?_, i3⟩
        intro x hx
        rcases List.mem_cons.mp hx with rfl | hx
        · exact hQ0 _ rfl
        · exact i2 x hx
    | bitmap a b c =>
      unfold Volume.processEntries at h
      exact ih stack prev seen hp hst hk _ _ h
    | file e =>
      have hme : Item.file e ∈ Item.file e :: items := by simp
      unfold Volume.processEntries at h
      dsimp only at h
      rw [leave_base hp hst] at h
      by_cases hloop : Loops base e
      · rw [if_pos ((guarded_iff e base).mpr hloop)] at h
        exact ih base prev seen hp (Or.inl rfl) hk _ _ h
      · rw [if_neg (fun hh => hloop ((guarded_iff e base).mp hh))] at h
        obtain ⟨hp', hst'⟩ := next_state (e := e) hp hloop
        have hitem : Q (expandPath parent (.file e)) := hQ0 _ ⟨hloop, by unfold expandPath; dsimp only; rw [withSeparator_joined]⟩
        cases hsub : v.subdirectory scanReallocated e seen with
        | mk r seen1 =>
          have hk1 : Knows P K seen1 := subdirectory_knows hk (hP e hme) hsub
          rw [hsub] at h
          cases r with
          | error x =>
            cases h
            refine ⟨hk1, ?_, ?_⟩
            · intro y hy
              rcases List.mem_cons.mp hy with rfl | hy
              · exact hitem
              · cases hy
            · intro y hy
              cases hy
              exact hE e hme seen hk _ _ hsub
          | ok ob =>
            cases ob with
            | none =>
              dsimp only at h
              cases hr : v.processEntries scanReallocated down parent items
                  (if (e.isDirectory && decide (e.firstCluster ≠ 0)) = true then e.firstCluster :: base else base)
                  (if (e.isDirectory && decide (e.firstCluster ≠ 0)) = true then some e.firstCluster else prev) seen1 with
              | none => rw [hr] at h; cases h
              | some w =>
                rw [hr] at h
                cases h
                obtain ⟨i1, i2, i3⟩ := ih _ _ seen1 hp' hst' hk1 _ _ hr
                refine ⟨i1, ?_, i3⟩
                intro x hx
                rcases List.mem_cons.mp hx with rfl | hx
                · exact hitem
                · exact i2 x hx
            | some buf =>
              dsimp only at h
              have hen := subdirectory_some hsub
              have hgd := enters_guard hen
              rw [if_pos hgd] at hp' hst' h
              rw [if_pos hgd] at hst' h
              rw [subName_eq] at h
              cases hd : down e.firstCluster buf (subName parent e) (e.firstCluster :: base) seen1 with
              | none => rw [hd] at h; cases h
              | some w =>
                obtain ⟨⟨its, err⟩, seen2⟩ := w
                rw [hd] at h
                obtain ⟨d1, d2, d3⟩ := hD e buf hme hloop hen seen1 _ _ hk1 hd
                cases err with
                | some x =>
                  cases h
                  refine ⟨d1, ?_, d3⟩
                  intro y hy
                  rcases List.mem_cons.mp hy with rfl | hy
                  · exact hitem
                  · exact d2 y hy
                | none =>
                  dsimp only at h
                  cases hr : v.processEntries scanReallocated down parent items (e.firstCluster :: base) (some e.firstCluster) seen2 with
                  | none => rw [hr] at h; cases h
                  | some w =>
                    rw [hr] at h
                    cases h
                    obtain ⟨i1, i2, i3⟩ := ih _ _ seen2 hp' hst' d1 _ _ hr
                    refine ⟨i1, ?_, i3⟩
                    intro y hy
                    rcases List.mem_cons.mp hy with rfl | hy
                    · exact hitem
                    · rcases List.mem_append.mp hy with hy | hy
                      · exact d2 y hy
                      · exact i2 y hy

/-- When the loop over the entries ends without an exception, it yields every entry and goes down into every directory. -/
theorem processEntries_all (v : Volume) (scanReallocated : Bool)
    (down : Nat → Bytes → Str → List Nat → Seen → Option Walk) (parent : Str) (base : List Nat) (items : List Item)
    (stack : List Nat) (prev : Option Nat) (seen : Seen) (hp : ∀ p, prev = some p → p ∉ base)
    (hst : stack = base ∨ ∃ p, prev = some p ∧ stack = p :: base) (g : Gen Item) (seen' : Seen)
    (h : v.processEntries scanReallocated down parent items stack prev seen = some (g, seen')) (hg : g.err = none) :
    (∀ item ∈ items, ∀ x, Reports parent base item x → x ∈ g.items) ∧
    ∀ e buf, .file e ∈ items → ¬ Loops base e → Enters v scanReallocated e buf →
      ∃ seen1 g1 seen2, down e.firstCluster buf (subName parent e) (e.firstCluster :: base) seen1 = some (g1, seen2) ∧ g1.err = none ∧
        ∀ x ∈ g1.items, x ∈ g.items := by
  induction items generalizing stack prev seen g seen' with
  | nil => exact ⟨by simp, by simp⟩
  | cons item items ih =>
    cases item with
    | orphan name =>
      unfold Volume.processEntries at h
      cases hr : v.processEntries scanReallocated down parent items stack prev seen with
      | none => rw [hr] at h; cases h
      | some w =>
        rw [hr] at h
        cases h
        obtain ⟨i1, i2⟩ := ih stack prev seen hp hst _ _ hr hg
        refine ⟨?_, ?_⟩
        · intro item hi x hx
          rcases List.mem_cons.mp hi with rfl | hi
          · refine List.mem_cons.mpr (Or.inl ?_)
            unfold expandPath
            dsimp only
            rw [withSeparator_joined]
            exact hx
          · exact List.mem_cons_of_mem _ (i1 item hi x hx)
        · intro e buf he hl hen
          obtain ⟨s1, g1, s2, a, b, c⟩ := i2 e buf (by simpa using he) hl hen
          exact ⟨s1, g1, s2, a, b, fun x hx => List.mem_cons_of_mem _ (c x hx)⟩
    | label name =>
      unfold Volume.processEntries at h
      cases hr : v.processEntries scanReallocated down parent items stack prev seen with
      | none => rw [hr] at h; cases h
      | some w =>
        rw [hr] at h
        cases h
        obtain ⟨i1, i2⟩ := ih stack prev seen hp hst _ _ hr hg
        refine ⟨?_, ?_⟩
        · intro item hi x hx
          rcases List.mem_cons.mp hi with rfl | hi
          · exact List.mem_cons.mpr (Or.inl hx)
          · exact List.mem_cons_of_mem _ (i1 item hi x hx)
        · intro e buf he hl hen
          obtain ⟨s1, g1, s2, a, b, c⟩ := i2 e buf (by simpa using he) hl hen
          exact ⟨s1, g1, s2, a, b, fun x hx => List.mem_cons_of_mem _ (c x hx)⟩
    | bitmap a b c =>
      unfold Volume.processEntries at h
      obtain ⟨i1, i2⟩ := ih stack prev seen hp hst _ _ h hg
      refine ⟨?_, fun e buf he => i2 e buf (by simpa using he)⟩
      intro item hi x hx
      rcases List.mem_cons.mp hi with rfl | hi
      · exact absurd hx (by unfold Reports; exact id)
      · exact i1 item hi x hx
    | file e0 =>
      unfold Volume.processEntries at h
      dsimp only at h
      rw [leave_base hp hst] at h
      by_cases hloop : Loops base e0
      · rw [if_pos ((guarded_iff e0 base).mpr hloop)] at h
        obtain ⟨i1, i2⟩ := ih base prev seen hp (Or.inl rfl) _ _ h hg
        refine ⟨?_, ?_⟩
        · intro item hi x hx
          rcases List.mem_cons.mp hi with rfl | hi
          · exact absurd hloop hx.1
          · exact i1 item hi x hx
        · intro e buf he hl hen
          rcases List.mem_cons.mp he with he | he
          · cases he; exact absurd hloop hl
          · exact i2 e buf he hl hen
      · rw [if_neg (fun hh => hloop ((guarded_iff e0 base).mp hh))] at h
        obtain ⟨hp', hst'⟩ := next_state (e := e0) hp hloop
        have hitem : ∀ x, Reports parent base (.file e0) x → x = expandPath parent (.file e0) := by
          intro x hx
          unfold expandPath
          dsimp only
          rw [withSeparator_joined]
          exact hx.2
        cases hsub : v.subdirectory scanReallocated e0 seen with
        | mk r seen1 =>
          rw [hsub] at h
          cases r with
          | error x => cases h; cases hg
          | ok ob =>
            cases ob with
            | none =>
              dsimp only at h
              cases hr : v.processEntries scanReallocated down parent items
                  (if (e0.isDirectory && decide (e0.firstCluster ≠ 0)) = true then e0.firstCluster :: base else base)
                  (if (e0.isDirectory && decide (e0.firstCluster ≠ 0)) = true then some e0.firstCluster else prev) seen1 with
              | none => rw [hr] at h; cases h
              | some w =>
                rw [hr] at h
                cases h
                obtain ⟨i1, i2⟩ := ih _ _ seen1 hp' hst' _ _ hr hg
                refine ⟨?_, ?_⟩
                · intro item hi x hx
                  rcases List.mem_cons.mp hi with rfl | hi
                  · exact List.mem_cons.mpr (Or.inl (hitem x hx))
                  · exact List.mem_cons_of_mem _ (i1 item hi x hx)
                · intro e buf he hl hen
                  rcases List.mem_cons.mp he with he | he
                  · cases he
                    obtain ⟨s, hs⟩ := subdirectory_enters hen seen
                    rw [hs] at hsub
                    cases hsub
                  · obtain ⟨s1, g1, s2, a, b, c⟩ := i2 e buf he hl hen
                    exact ⟨s1, g1, s2, a, b, fun x hx => List.mem_cons_of_mem _ (c x hx)⟩
            | some buf0 =>
              dsimp only at h
              have hen0 := subdirectory_some hsub
              have hgd := enters_guard hen0
              rw [if_pos hgd] at hp' hst' h
              rw [if_pos hgd] at hst' h
              rw [subName_eq] at h
              cases hd : down e0.firstCluster buf0 (subName parent e0) (e0.firstCluster :: base) seen1 with
              | none => rw [hd] at h; cases h
              | some w =>
                obtain ⟨⟨its, err⟩, seen2⟩ := w
                rw [hd] at h
                cases err with
                | some x => cases h; cases hg
                | none =>
                  dsimp only at h
                  cases hr : v.processEntries scanReallocated down parent items (e0.firstCluster :: base) (some e0.firstCluster) seen2 with
                  | none => rw [hr] at h; cases h
                  | some w =>
                    rw [hr] at h
                    cases h
                    obtain ⟨i1, i2⟩ := ih _ _ seen2 hp' hst' _ _ hr hg
                    refine ⟨?_, ?_⟩
                    · intro item hi x hx
                      rcases List.mem_cons.mp hi with rfl | hi
                      · exact List.mem_cons.mpr (Or.inl (hitem x hx))
                      · exact List.mem_cons_of_mem _ (List.mem_append_right _ (i1 item hi x hx))
                    · intro e buf he hl hen
                      rcases List.mem_cons.mp he with he | he
                      · cases he
                        obtain ⟨s, hs⟩ := subdirectory_enters hen seen
                        rw [hs] at hsub
                        cases hsub
                        exact ⟨seen1, _, seen2, hd, rfl, fun x hx => List.mem_cons_of_mem _ (List.mem_append_left _ hx)⟩
                      · obtain ⟨s1, g1, s2, a, b, c⟩ := i2 e buf he hl hen
                        exact ⟨s1, g1, s2, a, b, fun x hx => List.mem_cons_of_mem _ (List.mem_append_right _ (c x hx))⟩

/-! ### C80 -/

/-- What is reported is an entry of a directory that can be reached. -/
def Accounted (v : Volume) (scanReallocated : Bool) (x : Item) : Prop :=
  ∃ name path buf item, Reached v scanReallocated true name path buf ∧ item ∈ (listDirectory (decide (name = [])) buf).items ∧ Reports name path item x

/-- What is remembered is of an entry of a directory that can be reached. -/
def Source (v : Volume) (scanReallocated : Bool) (r : Reallocated) : Prop :=
  ∃ name path buf e, Reached v scanReallocated true name path buf ∧ .file e ∈ (listDirectory (decide (name = [])) buf).items ∧
    Remembered v scanReallocated e ∧ r = memory e

theorem processBuf_keeps {K : List Nat} {E : Exc → Prop} (v : Volume) (scanReallocated : Bool)
    (hE1 : ∀ name path buf, Reached v scanReallocated true name path buf → ∀ x, (listDirectory (decide (name = [])) buf).err = some x → E x)
    (hE2 : ∀ name path buf e, Reached v scanReallocated true name path buf → .file e ∈ (listDirectory (decide (name = [])) buf).items →
      ∀ seen, Knows (Source v scanReallocated) K seen → ∀ x seen', v.subdirectory scanReallocated e seen = (.error x, seen') → E x)
    (fuel : Nat) (name : Str) (path : List Nat) (buf : Bytes) (hr : Reached v scanReallocated true name path buf) (seen : Seen)
    (hk : Knows (Source v scanReallocated) K seen) (g : Gen Item) (seen' : Seen)
    (h : v.processBuf scanReallocated fuel buf name path seen = some (g, seen')) :
    Knows (Source v scanReallocated) K seen' ∧ (∀ x ∈ g.items, Accounted v scanReallocated x) ∧ ∀ x, g.err = some x → E x := by
  induction fuel generalizing name path buf seen g seen' with
  | zero => unfold Volume.processBuf at h; cases h
  | succ fuel ih =>
    unfold Volume.processBuf Volume.oneDirectory at h
    cases ho : openDirectory buf with
    | error e =>
      rw [ho] at h
      cases h
      refine ⟨hk, (fun x hx => by cases hx), ?_⟩
      intro x hx
      cases hx
      exact hE1 name path buf hr _ (by unfold listDirectory; rw [ho]; rfl)
    | ok _ =>
      rw [ho] at h
      dsimp only at h
      rw [← listing_root name buf ho] at h
      cases hp : v.processEntries scanReallocated (fun _ => v.processBuf scanReallocated fuel) name
          (listDirectory (decide (name = [])) buf).items path none seen with
      | none => rw [hp] at h; cases h
      | some w =>
        obtain ⟨⟨its, err⟩, seen2⟩ := w
        rw [hp] at h
        obtain ⟨k1, k2, k3⟩ := processEntries_keeps (P := Source v scanReallocated) (Q := Accounted v scanReallocated) (E := E) v scanReallocated
          (fun _ => v.processBuf scanReallocated fuel) name path _
          (fun item hi x hx => ⟨name, path, buf, item, hr, hi, hx⟩)
          (fun e he hrem => ⟨name, path, buf, e, hr, he, hrem, rfl⟩)
          (fun e he => hE2 name path buf e hr he)
          (fun e buf' he hl hen seen g seen' hk hd => ih _ _ buf' (.sub hr he hl hen) seen hk g seen' hd)
          path none seen (by simp) (Or.inl rfl) hk _ _ hp
        cases err with
        | none =>
          cases h
          exact ⟨k1, k2, fun x hx => hE1 name path buf hr x hx⟩
        | some e =>
          cases h
          exact ⟨k1, k2, k3⟩

theorem orphans_keeps {K : List Nat} {E : Exc → Prop} (v : Volume) (scanReallocated : Bool) (fuel : Nat)
    (hE1 : ∀ name path buf, Reached v scanReallocated true name path buf → ∀ x, (listDirectory (decide (name = [])) buf).err = some x → E x)
    (hE2 : ∀ K name path buf e, Reached v scanReallocated true name path buf → .file e ∈ (listDirectory (decide (name = [])) buf).items →
      ∀ seen, Knows (Source v scanReallocated) K seen → ∀ x seen', v.subdirectory scanReallocated e seen = (.error x, seen') → E x)
    (hE3 : ∀ c size noFatChain x, v.readChain c size noFatChain = .error x → caught x = false → E x)
    (l : List Nat) (hE4 : E .KeyError ∨ ∀ c ∈ l, c ∈ K) (seen : Seen) (hk : Knows (Source v scanReallocated) K seen) (g : Gen Item) (seen' : Seen)
    (h : v.orphans (v.processBuf scanReallocated fuel) l seen = some (g, seen')) :
    (∀ x ∈ g.items, Accounted v scanReallocated x) ∧ ∀ x, g.err = some x → E x := by
  induction l generalizing seen g seen' with
  | nil =>
    unfold Volume.orphans at h
    cases h
    exact ⟨(fun x hx => by cases hx), fun x hx => by cases hx⟩
  | cons c l ih =>
    replace ih := ih (hE4.imp id fun h d hd => h d (by simp [hd]))
    unfold Volume.orphans at h
    cases hf : seen.reallocated.find? (·.firstCluster = c) with
    | none =>
      rw [hf] at h
      cases h
      exact ⟨(fun x hx => by cases hx), fun x hx => by
        cases hx
        rcases hE4 with h | h
        · exact h
        · exfalso
          obtain ⟨r, hr1, hr2⟩ := List.mem_map.mp (hk.2 c (h c (by simp)))
          have := List.find?_eq_none.mp hf r hr1
          simp [hr2] at this⟩
    | some r =>
      rw [hf] at h
      dsimp only at h
      obtain ⟨n, p, b, e, hreach, he, hrem, hre⟩ := hk.1 r (List.mem_of_find?_eq_some hf)
      have hc : r.firstCluster = c := by simpa using List.find?_some hf
      cases hb : v.readChain c (some r.size) r.noFatChain with
      | error x =>
        rw [hb] at h
        dsimp only at h
        split at h
        · exact ih seen hk _ _ h
        · rename_i hx
          cases h
          exact ⟨(fun x hx => by cases hx), fun x hx' => by cases hx'; exact hE3 _ _ _ _ hb (by simpa using hx)⟩
      | ok buf =>
        rw [hb] at h
        dsimp only at h
        split at h
        · exact ih seen hk _ _ h
        · rename_i hbuf
          have hec : e.firstCluster = c := by rw [← hc, hre]; rfl
          have hor : Orphaned v e buf := by
            refine ⟨hrem.2.1, hrem.2.2.1, hrem.2.2.2, ?_, by omega, by omega, by omega, by omega⟩
            rw [hec, ← hb, hre]
            rfl
          have hr' : Reached v scanReallocated true (orphanPath c) [] buf := by
            rw [orphanPath_eq, ← hec]
            exact .orphan rfl hrem.1 hreach he hor
          cases hp : v.processBuf scanReallocated fuel buf (orphanPath c) [] seen with
          | none => rw [hp] at h; cases h
          | some w =>
            obtain ⟨⟨its, err⟩, seen2⟩ := w
            rw [hp] at h
            obtain ⟨k1, k2, k3⟩ := processBuf_keeps v scanReallocated hE1 (hE2 K) fuel _ _ _ hr' seen hk _ _ hp
            cases err with
            | some x => cases h; exact ⟨k2, k3⟩
            | none =>
              dsimp only at h
              cases hq : v.orphans (v.processBuf scanReallocated fuel) l seen2 with
              | none => rw [hq] at h; cases h
              | some w =>
                rw [hq] at h
                cases h
                obtain ⟨i1, i2⟩ := ih seen2 k1 _ _ hq
                refine ⟨?_, i2⟩
                intro x hx
                rcases List.mem_append.mp hx with hx | hx
                · exact k2 x hx
                · exact i1 x hx

theorem walk_keeps {E : Exc → Prop} (v : Volume) (scanReallocated : Bool) (order : List Nat → List Nat) (depth : Nat)
    (hE1 : ∀ name path buf, Reached v scanReallocated true name path buf → ∀ x, (listDirectory (decide (name = [])) buf).err = some x → E x)
    (hE2 : ∀ K name path buf e, Reached v scanReallocated true name path buf → .file e ∈ (listDirectory (decide (name = [])) buf).items →
      ∀ seen, Knows (Source v scanReallocated) K seen → ∀ x seen', v.subdirectory scanReallocated e seen = (.error x, seen') → E x)
    (hE3 : ∀ c size noFatChain x, v.readChain c size noFatChain = .error x → caught x = false → E x)
    (hE4 : E .KeyError ∨ ∀ l, ∀ c ∈ order l, c ∈ l) (hE5 : ∀ x, v.readChain v.br.firstClusterOfRootDirectory none false = .error x → E x)
    (g : Gen Item) (h : v.walk scanReallocated order depth = some g) :
    (∀ x ∈ g.items, Accounted v scanReallocated x) ∧ ∀ x, g.err = some x → E x := by
  unfold Volume.walk Volume.walkWith at h
  dsimp only at h
  cases hb : v.readChain v.br.firstClusterOfRootDirectory none false with
  | error x =>
    rw [hb] at h
    cases h
    exact ⟨(fun x hx => by cases hx), fun y hy => by cases hy; exact hE5 _ hb⟩
  | ok buf =>
    rw [hb] at h
    dsimp only at h
    cases hp : v.processBuf scanReallocated depth buf [] [v.br.firstClusterOfRootDirectory] ⟨[], []⟩ with
    | none => rw [hp] at h; cases h
    | some w =>
      obtain ⟨⟨its, err⟩, seen⟩ := w
      rw [hp] at h
      obtain ⟨k1, k2, k3⟩ := processBuf_keeps v scanReallocated hE1 (hE2 []) depth _ _ _ (.root hb) ⟨[], []⟩ ⟨(fun r hr => by cases hr), fun c hc => by cases hc⟩ _ _ hp
      cases err with
      | some x => cases h; exact ⟨k2, k3⟩
      | none =>
        dsimp only at h
        cases hq : v.orphans (v.processBuf scanReallocated depth) (order ((seen.reallocated.map (·.firstCluster)).filter (· ∉ seen.visited))) seen with
        | none => rw [hq] at h; cases h
        | some w =>
          rw [hq] at h
          cases h
          obtain ⟨i1, i2⟩ := orphans_keeps (K := seen.reallocated.map (·.firstCluster)) v scanReallocated depth hE1 hE2 hE3 _
            (hE4.imp id fun h c hc => (List.mem_filter.mp (h _ c hc)).1) seen ⟨k1.1, fun c hc => hc⟩ _ _ hq
          refine ⟨?_, i2⟩
          intro x hx
          rcases List.mem_append.mp hx with hx | hx
          · exact k2 x hx
          · exact i1 x hx

/-- C80: everything that a walk reports (even one that ends with an exception) is an entry of a directory that can be
reached from the root, or of an orphaned directory, with the path of that directory before its name. -/
theorem C80_sound (v : Volume) (scanReallocated : Bool) (order : List Nat → List Nat) (depth : Nat) (g : Gen Item)
    (h : v.walk scanReallocated order depth = some g) (x : Item) (hx : x ∈ g.items) :
    ∃ name path buf item, Reached v scanReallocated true name path buf ∧ item ∈ (listDirectory (decide (name = [])) buf).items ∧ Reports name path item x :=
  (walk_keeps (E := fun _ => True) v scanReallocated order depth (fun _ _ _ _ _ _ => trivial) (fun _ _ _ _ _ _ _ _ _ _ _ _ => trivial)
    (fun _ _ _ _ _ _ => trivial) (Or.inl trivial) (fun _ _ => trivial) g h).1 x hx

theorem processBuf_all (v : Volume) (scanReallocated : Bool) (fuel : Nat) (name : Str) (path : List Nat) (buf : Bytes) (seen : Seen) (g : Gen Item) (seen' : Seen)
    (h : v.processBuf scanReallocated fuel buf name path seen = some (g, seen')) (hg : g.err = none) :
    (∀ item ∈ (listDirectory (decide (name = [])) buf).items, ∀ x, Reports name path item x → x ∈ g.items) ∧
    ∀ e buf', .file e ∈ (listDirectory (decide (name = [])) buf).items → ¬ Loops path e → Enters v scanReallocated e buf' →
      ∃ fuel' seen1 g1 seen2, v.processBuf scanReallocated fuel' buf' (subName name e) (e.firstCluster :: path) seen1 = some (g1, seen2) ∧ g1.err = none ∧
        ∀ x ∈ g1.items, x ∈ g.items := by
  cases fuel with
  | zero => unfold Volume.processBuf at h; cases h
  | succ fuel =>
    unfold Volume.processBuf Volume.oneDirectory at h
    cases ho : openDirectory buf with
    | error e => rw [ho] at h; cases h; cases hg
    | ok _ =>
      rw [ho] at h
      dsimp only at h
      rw [← listing_root name buf ho] at h
      cases hp : v.processEntries scanReallocated (fun _ => v.processBuf scanReallocated fuel) name
          (listDirectory (decide (name = [])) buf).items path none seen with
      | none => rw [hp] at h; cases h
      | some w =>
        obtain ⟨⟨its, err⟩, seen2⟩ := w
        rw [hp] at h
        cases err with
        | some e => cases h; cases hg
        | none =>
          cases h
          obtain ⟨a1, a2⟩ := processEntries_all v scanReallocated _ name path _ path none seen (by simp) (Or.inl rfl) _ _ hp rfl
          refine ⟨a1, ?_⟩
          intro e buf' he hl hen
          obtain ⟨s1, g1, s2, b1, b2, b3⟩ := a2 e buf' he hl hen
          exact ⟨fuel, s1, g1, s2, b1, b2, b3⟩

/-- C80: when a walk ends without an exception, every entry of every directory that can be reached from the root was
reported, with the path of that directory before its name. -/
theorem C80_complete (v : Volume) (scanReallocated : Bool) (order : List Nat → List Nat) (depth : Nat) (g : Gen Item)
    (h : v.walk scanReallocated order depth = some g) (hg : g.err = none) (name : Str) (path : List Nat) (buf : Bytes)
    (hr : Reached v scanReallocated false name path buf) (item : Item) (hi : item ∈ (listDirectory (decide (name = [])) buf).items)
    (x : Item) (hx : Reports name path item x) : x ∈ g.items := by
  have key : ∃ fuel seen g1 seen', v.processBuf scanReallocated fuel buf name path seen = some (g1, seen') ∧ g1.err = none ∧ ∀ x ∈ g1.items, x ∈ g.items := by
    clear hi hx
    induction hr with
    | root hb =>
      unfold Volume.walk Volume.walkWith at h
      dsimp only at h
      rw [hb] at h
      dsimp only at h
      rename_i buf
      cases hp : v.processBuf scanReallocated depth buf [] [v.br.firstClusterOfRootDirectory] ⟨[], []⟩ with
      | none => rw [hp] at h; cases h
      | some w =>
        obtain ⟨⟨its, err⟩, seen⟩ := w
        rw [hp] at h
        cases err with
        | some x => cases h; cases hg
        | none =>
          dsimp only at h
          cases hq : v.orphans (v.processBuf scanReallocated depth) (order ((seen.reallocated.map (·.firstCluster)).filter (· ∉ seen.visited))) seen with
          | none => rw [hq] at h; cases h
          | some w =>
            rw [hq] at h
            cases h
            exact ⟨depth, _, _, _, hp, rfl, fun x hx => List.mem_append_left _ hx⟩
    | sub _ he hl hen ih =>
      obtain ⟨fuel, seen, g1, seen', h1, h2, h3⟩ := ih
      obtain ⟨fuel', s1, g2, s2, b1, b2, b3⟩ := (processBuf_all v scanReallocated fuel _ _ _ seen g1 seen' h1 h2).2 _ _ he hl hen
      exact ⟨fuel', s1, g2, s2, b1, b2, fun x hx => h3 x (b3 x hx)⟩
    | orphan h => cases h
  obtain ⟨fuel, seen, g1, seen', h1, h2, h3⟩ := key
  exact h3 x ((processBuf_all v scanReallocated fuel _ _ _ seen g1 seen' h1 h2).1 item hi x hx)

/-! ### C73 -/

/-- The exceptions of reading in an opened volume, when its offset is not near the limit of a seek. -/
theorem readChain_caught {object : Bytes} {offset : Nat} {size : Option Nat} {v : Volume} (h : openVolume object offset size = .ok v) (ho : offset ≤ 2 ^ 61)
    {c : Nat} {fileSize : Option Nat} {noFatChain : Bool} {x : Exc} (hx : v.readChain c fileSize noFatChain = .error x) : caught x = true := by
  obtain ⟨h1, h2, _⟩ := C67_reported object offset size v h
  obtain ⟨region, hbr⟩ : ∃ region, openBR region = .ok v.br := by
    rcases C67_used object offset (by omega) v.br v.backupUsed h1 with ⟨_, h⟩ | ⟨_, _, n, _, h, _⟩
    · exact ⟨_, h⟩
    · exact ⟨_, h⟩
  obtain ⟨hcs1, hcs2⟩ := C68_opened region object offset size v.br v.toHeap hbr h2
  obtain ⟨e1, e2, e3, e4, e5, e6, e7, e8, e9, e10, e11, e12, e13⟩ := (C65_layout region object offset size v.br hbr).2 v.toHeap h2
  obtain ⟨_, _, _, hcond⟩ := (C65_accepted region v.br).mp hbr
  have hstart : heapStart region < 4294967296 := u32_lt _ _
  have hcount := hcond.count
  have hsec : sectorSize region ≤ 2 ^ 12 := Nat.pow_le_pow_right (by decide) hcond.sector.2
  have hd : v.dataAreaOffset ≤ 2 ^ 44 := by
    rw [e5]
    exact Nat.le_trans (Nat.mul_le_mul (Nat.le_of_lt hstart) hsec) (by decide)
  have hplace : ∀ c, c ≤ v.lastValidCluster → v.offset + (v.dataAreaOffset + (c - 2) * v.clusterSize) + v.clusterSize < 2 ^ 63 := by
    intro c hc
    have : (c - 2) * v.clusterSize ≤ 2 ^ 32 * 2 ^ 25 := Nat.mul_le_mul (by omega) hcs2
    rw [e11]
    omega
  have hentry : ∀ c e, v.table.getElement c = .error e → e = .FileAllocationTableException := by
    intro c e he
    unfold Table.getElement at he
    split at he
    · cases he; rfl
    · unfold seekRead at he
      rw [if_neg (by omega)] at he
      dsimp only at he
      split at he
      · cases he; rfl
      · cases he
  have hchain : ∀ e, v.table.chain c = .error e → e = .FileAllocationTableException := by
    intro e he
    rcases (C68_error v.table c e).mp he with ⟨_, h⟩ | ⟨_, _, _, last, _, _, h⟩
    · exact h
    · exact hentry last e h
  have hread : ∀ (l : List (Option Nat)) r e, (∀ c, some c ∈ l → c ≤ v.lastValidCluster) → v.readClusters fileSize l r = .error e → e = .ValueError := by
    intro l
    induction l with
    | nil => intro r e _ h; unfold Heap.readClusters at h; cases h
    | cons x l ih =>
      intro r e hl h
      unfold Heap.readClusters at h
      split at h
      · cases h
      · split at h
        · rename_i e' he
          cases h
          cases x with
          | none => unfold Heap.readCluster at he; cases he
          | some c =>
            have := hplace c (hl c (by simp))
            unfold Heap.readCluster at he
            dsimp only at he
            rw [if_neg (by omega)] at he
            split at he
            · cases he; rfl
            · unfold seekRead at he
              rw [if_neg (by omega)] at he
              dsimp only at he
              split at he
              · cases he; rfl
              · cases he
        · split at h
          · rename_i e' he
            cases h
            exact ih _ _ (fun y hy => hl y (by simp [hy])) he
          · cases h
  unfold Heap.readChain at hx
  cases hcl : v.clustersOf c fileSize noFatChain with
  | error e =>
    rw [hcl] at hx
    cases hx
    unfold Heap.clustersOf at hcl
    split at hcl
    · rw [hchain _ hcl]; rfl
    · split at hcl
      · cases hcl; rfl
      · cases hcl
  | ok l =>
    rw [hcl] at hx
    dsimp only at hx
    have hl : ∀ c, some c ∈ l → c ≤ v.lastValidCluster := by
      intro y hy
      unfold Heap.clustersOf at hcl
      split at hcl
      · have := ((C68_clusters v.table c l hcl).1 y hy).1
        omega
      · split at hcl
        · cases hcl
        · cases hcl
          rename_i n
          obtain ⟨z, hz, hzy⟩ := List.mem_map.mp hy
          cases hzy
          exact (C68_contiguous_valid v.toHeap (by omega) c n y hz).2.2
    cases hrc : v.readClusters fileSize l 0 with
    | error e =>
      rw [hrc] at hx
      cases hx
      rw [hread l 0 _ hl hrc]; rfl
    | ok b =>
      rw [hrc] at hx
      cases fileSize <;> cases hx

theorem isAllocated_total {b : Bitmap} (h : b.lastValidCluster ≤ 8 * b.buf.length + 1) (c : Nat) : ∃ r, b.isAllocated c = .ok r := by
  unfold Bitmap.isAllocated
  by_cases h1 : c < 2
  · rw [if_pos h1]; exact ⟨_, rfl⟩
  by_cases h2 : c > b.lastValidCluster
  · rw [if_neg h1, if_pos h2]; exact ⟨_, rfl⟩
  rw [if_neg h1, if_neg h2]
  unfold index
  rw [List.getElem?_eq_getElem (show (c - 2) / 8 < b.buf.length by omega)]
  exact ⟨_, rfl⟩

theorem remember_ok {e : FileEntry} (he : e.mtime ≠ none) {l : List Reallocated} (hl : ∀ r ∈ l, r.mtime ≠ none) : ∃ l', remember e l = .ok l' := by
  induction l with
  | nil => exact ⟨_, rfl⟩
  | cons a l ih =>
    unfold remember
    split
    · cases hm : e.mtime with
      | none => exact absurd hm he
      | some m =>
        cases ha : a.mtime with
        | none => exact absurd ha (hl a (by simp))
        | some t => exact ⟨_, rfl⟩
    · obtain ⟨l', h⟩ := ih (fun r hr => hl r (by simp [hr]))
      rw [h]
      exact ⟨_, rfl⟩

theorem subdirectory_no_error {P : Reallocated → Prop} {K : List Nat} {v : Volume} {scanReallocated : Bool} {e : FileEntry} {seen seen' : Seen} {x : Exc}
    (hb : v.bitmap.lastValidCluster ≤ 8 * v.bitmap.buf.length + 1)
    (hr : ∀ c size noFatChain x, v.readChain c size noFatChain = .error x → caught x = true)
    (hP : ∀ r, P r → r.mtime ≠ none) (he : e.isDirectory = true → e.isDeleted = true → e.mtime ≠ none) (hk : Knows P K seen)
    (h : v.subdirectory scanReallocated e seen = (.error x, seen')) : False := by
  unfold Volume.subdirectory at h
  split at h
  · rename_i y hy
    obtain ⟨r, hr⟩ := isAllocated_total hb e.firstCluster
    rw [hr] at hy; cases hy
  · cases h
  split at h
  · cases h
  rename_i hd
  split at h
  · rename_i hc
    obtain ⟨l, hl⟩ := remember_ok (he (by simpa using hd) hc.2.1) (l := seen.reallocated) (fun r hr => hP r (hk.1 r hr))
    rw [hl] at h
    cases h
  dsimp only at h
  split at h
  · rename_i y hy
    rw [hr _ _ _ _ hy] at h
    cases h
  · split at h <;> cases h

/-- C73: in an opened volume, a walk ends without an exception although the chains and the clusters of directories are
damaged in any way; so that (`C80_complete`) the rest is reported.  Partial: that is so when `Tolerable` holds;
`C73_aborted` shows that it does not hold for every volume. -/
theorem C73_ends_partial (object : Bytes) (offset : Nat) (size : Option Nat) (v : Volume) (h : openVolume object offset size = .ok v) (ho : offset ≤ 2 ^ 61)
    (scanReallocated : Bool) (ht : Tolerable v scanReallocated) (order : List Nat → List Nat) (horder : ∀ l, ∀ c ∈ order l, c ∈ l)
    (depth : Nat) (hd : lastCluster v + 2 ≤ depth) : ∃ g, v.walk scanReallocated order depth = some g ∧ g.err = none := by
  obtain ⟨g, hg⟩ := C72_terminates v scanReallocated order
  refine ⟨g, hg depth hd, ?_⟩
  have hread : ∀ c size noFatChain x, v.readChain c size noFatChain = .error x → caught x = true := fun _ _ _ _ hx => readChain_caught h ho hx
  have hsource : ∀ r, Source v scanReallocated r → r.mtime ≠ none := by
    rintro r ⟨name, path, buf, e, h1, h2, h3, rfl⟩
    exact ht.times name path buf e h1 h2 h3.2.1 h3.2.2.1
  obtain ⟨_, k⟩ := walk_keeps (E := fun _ => False) v scanReallocated order depth
    (fun name path buf hr x hx => by
      by_cases hn : name = []
      · obtain ⟨b, hb1, hb2⟩ := ht.root
        have : buf = b := by
          cases hr with
          | root h => rw [hb1] at h; cases h; rfl
          | sub => exact absurd hn (by rw [show Str.ofString "/" = [0x2F] by decide]; simp)
          | orphan => rw [← orphanPath_eq] at hn; unfold orphanPath at hn; simp at hn
        subst this
        subst hn
        rw [show decide (([] : Str) = []) = true from rfl, hb2] at hx
        cases hx
      · obtain ⟨s1, s2⟩ := ht.sectors name path buf hr
        rw [decide_eq_false hn, C69_no_failure buf s1 s2] at hx
        cases hx)
    (fun K name path buf e hr he seen hk x seen' hx =>
      subdirectory_no_error ht.bitmap hread hsource (ht.times name path buf e hr he) hk hx)
    (fun c size noFatChain x hx hc => by rw [hread c size noFatChain x hx] at hc; cases hc)
    (Or.inr horder)
    (fun x hx => by
      obtain ⟨b, hb1, _⟩ := ht.root
      rw [hb1] at hx
      cases hx) g (hg depth hd)
  cases he : g.err with
  | none => rfl
  | some x => exact (k x he).elim

/-! ### An example -/

/-- A volume whose root directory can be read, without a deleted directory and with directories that cannot be read. -/
def onlyRoot (v : Volume) : Bool :=
  match v.readChain v.br.firstClusterOfRootDirectory none false with
  | .error _ => false
  | .ok buf =>
    (listDirectory true buf).err.isNone && decide (512 ≤ buf.length ∧ buf.length % 512 = 0) &&
    decide (v.bitmap.lastValidCluster ≤ 8 * v.bitmap.buf.length + 1) &&
    (listDirectory true buf).items.all fun
      | .file e => !e.isDirectory || (!e.isDeleted && match v.readChain e.firstCluster (some e.size) e.noFatChain with | .error _ => true | .ok _ => false)
      | _ => true

theorem onlyRoot_tolerable {v : Volume} (h : onlyRoot v = true) (scanReallocated : Bool) : Tolerable v scanReallocated := by
  unfold onlyRoot at h
  cases hb : v.readChain v.br.firstClusterOfRootDirectory none false with
  | error x => rw [hb] at h; cases h
  | ok buf =>
    rw [hb] at h
    simp only [Bool.and_eq_true, decide_eq_true_eq, List.all_eq_true] at h
    obtain ⟨⟨⟨h1, h2⟩, h3⟩, h4⟩ := h
    have hroot : ∀ name path b, Reached v scanReallocated true name path b → name = [] ∧ b = buf := by
      intro name path b hr
      induction hr with
      | root h => rw [hb] at h; cases h; exact ⟨rfl, rfl⟩
      | sub _ he _ hen ih =>
        exfalso
        rw [ih.1, ih.2] at he
        have := h4 _ he
        dsimp only at this
        rw [hen.1, hen.2.2.1] at this
        simp at this
      | orphan _ _ _ he ho ih =>
        exfalso
        rw [ih.1, ih.2] at he
        have := h4 _ he
        dsimp only at this
        rw [ho.1, ho.2.1] at this
        simp at this
    refine ⟨⟨buf, hb, by simpa using h1⟩, h3, ?_, ?_⟩
    · intro name path b hr
      rw [(hroot name path b hr).2]
      exact h2
    · intro name path b e hr he hd hdel
      obtain ⟨r1, r2⟩ := hroot name path b hr
      rw [r1, r2] at he
      have := h4 _ he
      dsimp only at this
      rw [hd, hdel] at this
      simp at this

/-- The part of the opening after the boot region. -/
def openAfter (object : Bytes) : Except Exc Volume :=
  match openHeap object 0 none ⟨object⟩ with
  | .error e => .error e
  | .ok heap =>
    match findBitmap heap ⟨object⟩ with
    | .error e => .error e
    | .ok bitmap => .ok { heap with br := ⟨object⟩, bitmap, backupUsed := false }

theorem open_tiny (root cluster4 cluster5 : List Bytes) (h1 : (bitmapEntry :: root).flatten.length ≤ 512) (h2 : cluster4.flatten.length ≤ 512)
    (h3 : cluster5.flatten.length ≤ 512) : openVolume (tinyVolume root cluster4 cluster5) 0 none = openAfter (tinyVolume root cluster4 cluster5) := by
  unfold openVolume
  have this : selectBR (tinyVolume root cluster4 cluster5) 0 = .ok (⟨tinyVolume root cluster4 cluster5⟩, false) := tiny_select (natLE 4 0xFFFFFFF8 ++ (natLE 4 0xFFFFFFFF ++ (natLE 4 0xFFFFFFFF ++ (natLE 4 0xFFFFFFFF ++ (natLE 4 0xFFFFFFFF ++ (natLE 4 0xFFFFFFFF ++ zeros 488))))))
    (clusterOf (bitmapEntry :: root) ++ (0x0F :: zeros 511 ++ (clusterOf cluster4 ++ clusterOf cluster5)))
    (by simp only [List.length_append, natLE_length, zeros_length, List.length_cons, clusterOf_length h1, clusterOf_length h2, clusterOf_length h3])
    (by simp only [List.length_append, natLE_length, zeros_length, List.length_cons, clusterOf_length h1, clusterOf_length h2, clusterOf_length h3]; decide)
  rw [if_neg (by simp), this]
  unfold openAfter
  simp only [bind, Except.bind, pure, Except.pure]
  cases openHeap (tinyVolume root cluster4 cluster5) 0 none ⟨tinyVolume root cluster4 cluster5⟩ with
  | error e => rfl
  | ok heap =>
    dsimp only
    cases findBitmap heap ⟨tinyVolume root cluster4 cluster5⟩ with
    | error e => rfl
    | ok bitmap => rfl

/-- A volume with a directory in cluster 10, which is after the end of the object, and a file after it. -/
def damagedVolume : Bytes := tinyVolume [setOf true 30422 "A" 0x10 10 512, setOf true 26558 "F" 0x20 0 0] [] []

/-- The hypotheses of `C73_ends_partial` hold for it: the walk goes on after the directory. -/
example : ∃ v, openVolume damagedVolume 0 none = .ok v ∧ (∀ scanReallocated, Tolerable v scanReallocated) ∧
    walkOf damagedVolume = .ok (some ([(Str.ofString "/A", 10), (Str.ofString "/F", 0)], none)) := by
  have h : ∃ v, openAfter damagedVolume = .ok v ∧ onlyRoot v = true := by
    have : (match openAfter damagedVolume with | .ok v => onlyRoot v | .error _ => false) = true := by decide +kernel
    cases ho : openAfter damagedVolume with
    | error e => rw [ho] at this; cases this
    | ok v => rw [ho] at this; exact ⟨v, rfl, this⟩
  obtain ⟨v, h1, h2⟩ := h
  refine ⟨v, ?_, onlyRoot_tolerable h2, ?_⟩
  · unfold damagedVolume at h1 ⊢
    rw [open_tiny _ _ _ (by decide +kernel) (by decide +kernel) (by decide +kernel), h1]
  · unfold damagedVolume
    rw [walkOf_tiny _ _ _ (by decide +kernel) (by decide +kernel) (by decide +kernel)]
    decide +kernel

/-- The first file of some entries. -/
def firstFile : List Item → Option FileEntry
  | [] => none
  | .file e :: _ => some e
  | _ :: rest => firstFile rest

theorem firstFile_mem {l : List Item} {e : FileEntry} (h : firstFile l = some e) : .file e ∈ l := by
  induction l with
  | nil => cases h
  | cons a l ih =>
    cases a with
    | file e' => cases h; simp
    | orphan => exact List.mem_cons_of_mem _ (ih h)
    | label => exact List.mem_cons_of_mem _ (ih h)
    | bitmap => exact List.mem_cons_of_mem _ (ih h)

/-- The first entry of the root directory is the directory `A`, it can be entered and has an entry `B`. -/
def hasAB (v : Volume) : Bool :=
  match v.readChain v.br.firstClusterOfRootDirectory none false with
  | .error _ => false
  | .ok buf =>
    match firstFile (listDirectory true buf).items with
    | none => false
    | some e =>
      e.isDirectory && !e.isDeleted && decide (e.name = Str.ofString "A") && decide (e.firstCluster ∉ [v.br.firstClusterOfRootDirectory]) &&
      decide (v.bitmap.isAllocated e.firstCluster = .ok (some true)) &&
      match v.readChain e.firstCluster (some e.size) e.noFatChain with
      | .error _ => false
      | .ok buf' => decide (buf' ≠ []) && (listDirectory false buf').items.any fun
        | .file e' => decide (e'.name = Str.ofString "B") && decide (e'.firstCluster ∉ [e.firstCluster, v.br.firstClusterOfRootDirectory])
        | _ => false

theorem hasAB_reached {v : Volume} (h : hasAB v = true) : ∃ path buf e, Reached v false false (Str.ofString "/A") path buf ∧
    .file e ∈ (listDirectory (decide (Str.ofString "/A" = [])) buf).items ∧
    Reports (Str.ofString "/A") path (.file e) (.file { e with name := Str.ofString "/A/B" }) := by
  unfold hasAB at h
  cases hb : v.readChain v.br.firstClusterOfRootDirectory none false with
  | error x => rw [hb] at h; cases h
  | ok buf =>
    rw [hb] at h
    dsimp only at h
    cases hf : firstFile (listDirectory true buf).items with
    | none => rw [hf] at h; cases h
    | some e =>
      rw [hf] at h
      dsimp only at h
      simp only [Bool.and_eq_true, decide_eq_true_eq, Bool.not_eq_true'] at h
      obtain ⟨⟨⟨⟨⟨h1, h2⟩, h3⟩, h4⟩, h5⟩, h6⟩ := h
      cases hb' : v.readChain e.firstCluster (some e.size) e.noFatChain with
      | error x => rw [hb'] at h6; cases h6
      | ok buf' =>
        rw [hb'] at h6
        simp only [Bool.and_eq_true, decide_eq_true_eq, List.any_eq_true] at h6
        obtain ⟨h6, item, h7, h8⟩ := h6
        cases item with
        | orphan => cases h8
        | label => cases h8
        | bitmap => cases h8
        | file e' =>
          simp only [Bool.and_eq_true, decide_eq_true_eq] at h8
          have hr := Reached.sub (withOrphans := false) (scanReallocated := false) (Reached.root hb) (firstFile_mem hf) (fun hl => h4 hl.2.2)
            ⟨h1, ⟨true, h5, by rw [h2]; simp⟩, hb', h6⟩
          rw [h3] at hr
          refine ⟨_, _, e', hr, h7, fun hl => h8.2 hl.2.2, ?_⟩
          rw [h8.1, show joined (Str.ofString "/A") (Str.ofString "B") = Str.ofString "/A/B" by decide]

/-- The hypotheses of `C80_complete` hold for the volume with loops. -/
example : ∃ v, openVolume loopVolume 0 none = .ok v ∧ ∃ path buf e, Reached v false false (Str.ofString "/A") path buf ∧
    .file e ∈ (listDirectory (decide (Str.ofString "/A" = [])) buf).items ∧
    Reports (Str.ofString "/A") path (.file e) (.file { e with name := Str.ofString "/A/B" }) := by
  have h : ∃ v, openAfter loopVolume = .ok v ∧ hasAB v = true := by
    have : (match openAfter loopVolume with | .ok v => hasAB v | .error _ => false) = true := by decide +kernel
    cases ho : openAfter loopVolume with
    | error e => rw [ho] at this; cases this
    | ok v => rw [ho] at this; exact ⟨v, rfl, this⟩
  obtain ⟨v, h1, h2⟩ := h
  refine ⟨v, ?_, hasAB_reached h2⟩
  unfold loopVolume at h1 ⊢
  rw [open_tiny _ _ _ (by decide +kernel) (by decide +kernel) (by decide +kernel), h1]

end Verif.Props.ExFAT
