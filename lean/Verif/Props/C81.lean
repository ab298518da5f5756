/-
C81: what a walk over a FAT volume reports.
-/
import Verif.Props.C63_C64
namespace Verif.Props
open Verif.FAT Verif.Spec.FAT Volume

/-! ### Paths -/

theorem withSeparator_joined (parent name : Str) : withSeparator parent ++ name = joined parent name := by
  unfold withSeparator joined
  have hc : '/'.toNat = 0x2F := rfl
  have hs : Str.ofString "/" = [0x2F] := by decide
  rw [hc, hs]
  by_cases h0 : parent = []
  · subst h0; rfl
  · have h1 : parent.length > 0 := List.length_pos_iff.mpr h0
    by_cases h2 : parent.getLast? = some 0x2F
    · rw [if_neg (fun h => h.2 h2), if_neg (by omega), if_pos h2]
    · rw [if_pos ⟨h1, h2⟩, if_neg h2]

theorem orphanPath_eq (n : Nat) : orphanPath n = Str.ofString s!"<Orphan directory {n}>" := by
  unfold Verif.FAT.Volume.orphanPath Verif.FAT.Volume.decimal Str.ofString
  simp [toString, Nat.repr]

/-! ### One directory -/

/-- Every cluster that is remembered has a property. -/
def Knows (P : Nat → Prop) (seen : Seen) : Prop := ∀ c ∈ seen.reallocated, P c

/-- A deleted directory that is remembered. -/
def Remembered (v : Volume) (scanReallocated : Bool) (e : FileEntry) : Prop :=
  scanReallocated = false ∧ IsSubdirectory e ∧ e.isDeleted = some true ∧ v.table.isAllocated e.firstCluster = .ok (some true)

theorem entered_iff (e : FileEntry) : Volume.entered e = true ↔ IsSubdirectory e := by
  unfold Volume.entered IsSubdirectory
  rw [show Str.ofString "." = [0x2E] by decide, show Str.ofString ".." = [0x2E, 0x2E] by decide]
  simp

theorem subdirectory_knows {P : Nat → Prop} {v : Volume} {scanReallocated : Bool} {e : FileEntry} {seen seen' : Seen} {r : Except Exc (Option Bytes)}
    (he : IsSubdirectory e) (hk : Knows P seen) (hP : Remembered v scanReallocated e → P e.firstCluster)
    (h : v.subdirectory scanReallocated e seen = (r, seen')) : Knows P seen' := by
  unfold Volume.subdirectory at h
  dsimp only at h
  split at h
  · cases h; exact hk
  · cases h; exact hk
  rename_i allocated ha
  split at h
  · rename_i hr
    cases h
    intro c hc
    rcases List.mem_append.mp hc with hc | hc
    · exact hk c hc
    · rw [List.mem_singleton.mp hc]
      exact hP ⟨hr.1, he, by simpa using hr.2.1, by rw [ha, hr.2.2]⟩
  split at h
  · cases h; exact hk
  split at h
  · cases h; exact hk
  split at h
  · cases h; exact hk
  split at h <;> (cases h; exact hk)

theorem bufsMatch_iff (a b : Bytes) : bufsMatch a b = true ↔ u8 a (a.length - 96) ≠ 0 ∧ u8 a (a.length - 64) ≠ 0 ∧ u8 a (a.length - 32) ≠ 0 ∧ u8 b 0 ≠ 0 ∧
    slice b 33 35 ≠ [0x2E, 0x20] := by
  unfold bufsMatch
  by_cases h1 : u8 a (a.length - 96) = 0 ∨ u8 a (a.length - 64) = 0 ∨ u8 a (a.length - 32) = 0 ∨ u8 b 0 = 0
  · rw [if_pos h1]
    refine ⟨(fun h => by cases h), fun h => ?_⟩
    omega
  · rw [if_neg h1]
    by_cases h2 : slice b 33 35 = [0x2E, 0x20]
    · rw [if_pos h2]
      exact ⟨(fun h => by cases h), fun h => absurd h2 h.2.2.2.2⟩
    · rw [if_neg h2]
      exact ⟨fun _ => ⟨by omega, by omega, by omega, by omega, h2⟩, fun _ => rfl⟩

/-- The bytes of a directory, with the next cluster when it is taken. -/
theorem withExtra_ok {v : Volume} {deleted : Bool} {first : Nat} {whole buf : Bytes} (h : v.withExtra deleted first whole = .ok buf) :
    (∃ extra, deleted = true ∧ Extends v first whole extra ∧ buf = whole ++ extra) ∨ (¬ (∃ extra, deleted = true ∧ Extends v first whole extra) ∧ buf = whole) := by
  unfold Volume.withExtra at h
  cases deleted with
  | false => cases h; exact Or.inr ⟨(fun ⟨_, h, _⟩ => by cases h), rfl⟩
  | true =>
    simp only [not_true_eq_false, if_false] at h
    cases hc : v.table.chain first with
    | error x => rw [hc] at h; cases h
    | ok chain =>
      rw [hc] at h
      dsimp only at h
      by_cases hl : chain.length ≠ 1
      · rw [if_pos hl] at h
        cases h
        refine Or.inr ⟨?_, rfl⟩
        rintro ⟨_, _, ⟨c, hc'⟩, _⟩
        rw [hc] at hc'
        cases hc'
        exact hl rfl
      · rw [if_neg hl] at h
        have hone : ∃ cluster, chain = [cluster] := List.length_eq_one_iff.mp (by omega)
        cases ha : v.table.isAllocated (first + 1) with
        | error x => rw [ha] at h; cases h
        | ok r =>
          rw [ha] at h
          have hno : ∀ r', r = r' → r' ≠ some false → ¬ (∃ extra, true = true ∧ Extends v first whole extra) := by
            rintro r' rfl hne ⟨_, _, _, ha', _⟩
            rw [ha] at ha'
            cases ha'
            exact hne rfl
          cases r with
          | none => cases h; exact Or.inr ⟨hno _ rfl (by simp), rfl⟩
          | some a =>
            cases a with
            | true => cases h; exact Or.inr ⟨hno _ rfl (by simp), rfl⟩
            | false =>
              dsimp only at h
              unfold Volume.extend at h
              cases hx : v.readChain (first + 1) none with
              | error x =>
                rw [hx] at h
                dsimp only at h
                split at h
                · cases h
                  refine Or.inr ⟨?_, rfl⟩
                  rintro ⟨_, _, _, _, hx', _⟩
                  rw [hx] at hx'
                  cases hx'
                · cases h
              | ok extra =>
                rw [hx] at h
                dsimp only at h
                by_cases hm : bufsMatch whole extra = true
                · rw [if_pos hm] at h
                  cases h
                  obtain ⟨cluster, rfl⟩ := hone
                  exact Or.inl ⟨extra, rfl, ⟨⟨cluster, hc⟩, ha, hx, (bufsMatch_iff _ _).mp hm⟩, rfl⟩
                · rw [if_neg hm] at h
                  cases h
                  refine Or.inr ⟨?_, rfl⟩
                  rintro ⟨_, _, _, _, hx', hm'⟩
                  rw [hx] at hx'
                  cases hx'
                  exact hm ((bufsMatch_iff _ _).mpr hm')

/-- When a subdirectory is entered. -/
theorem subdirectory_Enters {v : Volume} {scanReallocated : Bool} {e : FileEntry} {seen seen' : Seen} {buf : Bytes} (he : IsSubdirectory e)
    (h : v.subdirectory scanReallocated e seen = (.ok (some buf), seen')) : Enters v scanReallocated e buf := by
  unfold Volume.subdirectory at h
  dsimp only at h
  split at h
  · cases h
  · cases h
  rename_i allocated ha
  split at h
  · cases h
  rename_i hr
  split at h
  · split at h <;> cases h
  rename_i whole hw
  split at h
  · cases h
  rename_i hne
  split at h
  · cases h
  rename_i hdot
  split at h
  · cases h
  rename_i b hb
  cases h
  refine ⟨he, ⟨allocated, ha, fun h1 h2 => ?_⟩, whole, hw, by simpa using hne, fun h1 h2 => ?_, ?_⟩
  · cases allocated
    · rfl
    · exact absurd ⟨h1, by simpa using h2, rfl⟩ hr
  · exact Classical.byContradiction fun hn => hdot ⟨h1, by simpa using h2, hn⟩
  · have := withExtra_ok hb
    simp only [decide_eq_true_eq] at this
    exact this

/-- An entered directory is entered whatever was seen before, or there is an exception. -/
theorem subdirectory_enters {v : Volume} {scanReallocated : Bool} {e : FileEntry} {buf : Bytes} (h : Enters v scanReallocated e buf) (seen : Seen) :
    ∃ seen', v.subdirectory scanReallocated e seen = (.ok (some buf), seen') ∨ ∃ x, v.subdirectory scanReallocated e seen = (.error x, seen') := by
  obtain ⟨he, ⟨allocated, ha, hr⟩, whole, hw, hne, hdot, hbuf⟩ := h
  unfold Volume.subdirectory
  rw [ha]
  dsimp only
  rw [if_neg (fun ⟨h1, h2, h3⟩ => by rw [hr h1 (by simpa using h2)] at h3; cases h3)]
  rw [hw]
  dsimp only
  rw [if_neg (by simpa using hne), if_neg (fun ⟨h1, h2, h3⟩ => h3 (hdot h1 (by simpa using h2)))]
  cases hx : v.withExtra (decide (e.isDeleted = some true)) e.firstCluster whole with
  | error x => exact ⟨_, Or.inr ⟨x, rfl⟩⟩
  | ok b =>
    have hb := withExtra_ok hx
    simp only [decide_eq_true_eq] at hb
    have : b = buf := by
      rcases hb with ⟨extra, h1, h2, h3⟩ | ⟨h1, h2⟩
      · rcases hbuf with ⟨extra', _, h2', h3'⟩ | ⟨h1', _⟩
        · have := h2.2.2.1
          rw [h2'.2.2.1] at this
          cases this
          rw [h3, h3']
        · exact absurd ⟨extra, h1, h2⟩ h1'
      · rcases hbuf with ⟨extra', h1', h2', _⟩ | ⟨_, h2'⟩
        · exact absurd ⟨extra', h1', h2'⟩ h1
        · rw [h2, h2']
    subst this
    exact ⟨_, Or.inl rfl⟩

theorem guarded_iff (e : FileEntry) (path : List Nat) :
    ((Volume.entered e && decide (e.firstCluster ≠ 0)) = true ∧ e.firstCluster ∈ path) ↔ Loops path e := by
  unfold Loops
  rw [Bool.and_eq_true, decide_eq_true_eq, entered_iff, and_assoc]

theorem leave_base {prev : Option Nat} {stack base : List Nat} (hp : ∀ p, prev = some p → p ∉ base)
    (hst : stack = base ∨ ∃ p, prev = some p ∧ stack = p :: base) : Volume.leave prev stack = base := by
  unfold Volume.leave
  cases prev with
  | none =>
    rcases hst with h | ⟨p, hp', _⟩
    · exact h
    · cases hp'
  | some p =>
    dsimp only
    rcases hst with h | ⟨q, hq, h⟩
    · rw [h]; exact List.erase_of_not_mem (hp p rfl)
    · cases hq; rw [h]; simp

/-- The state of the loop after an entry that is not on the path. -/
theorem next_state {prev : Option Nat} {base : List Nat} {e : FileEntry} (hp : ∀ p, prev = some p → p ∉ base) (hloop : ¬ Loops base e) :
    (∀ p, (if (Volume.entered e && decide (e.firstCluster ≠ 0)) = true then some e.firstCluster else prev) = some p → p ∉ base) ∧
    ((if (Volume.entered e && decide (e.firstCluster ≠ 0)) = true then e.firstCluster :: base else base) = base ∨
      ∃ p, (if (Volume.entered e && decide (e.firstCluster ≠ 0)) = true then some e.firstCluster else prev) = some p ∧
        (if (Volume.entered e && decide (e.firstCluster ≠ 0)) = true then e.firstCluster :: base else base) = p :: base) := by
  rw [← guarded_iff] at hloop
  generalize (Volume.entered e && decide (e.firstCluster ≠ 0)) = g at hloop ⊢
  cases g with
  | false => exact ⟨hp, Or.inl rfl⟩
  | true =>
    refine ⟨?_, Or.inr ⟨_, rfl, rfl⟩⟩
    intro p h
    cases h
    exact fun hm => hloop ⟨rfl, hm⟩

theorem enters_guard {v : Volume} {scanReallocated : Bool} {e : FileEntry} {buf : Bytes} (h : Enters v scanReallocated e buf) :
    (Volume.entered e && decide (e.firstCluster ≠ 0)) = true := by
  rw [(entered_iff e).mpr h.1, Bool.true_and, decide_eq_true_eq]
  intro h0
  obtain ⟨_, _, whole, hw, hne, _⟩ := h
  rw [h0] at hw
  unfold Volume.readChain at hw
  rw [C56_reserved _ _ (by decide)] at hw
  cases hw
  exact hne rfl

/-- The path of a subdirectory. -/
def subName (parent : Str) (e : FileEntry) : Str := parent ++ Str.ofString "/" ++ e.longName.getD e.shortName

theorem subName_eq (parent : Str) (e : FileEntry) : parent ++ [0x2F] ++ preferredName e = subName parent e := by
  unfold subName preferredName
  rw [show Str.ofString "/" = [0x2F] by decide]

theorem expand_file (parent : Str) (e : FileEntry) :
    expandPath parent (.file e) = .ok (.file { e with shortName := joined parent e.shortName, longName := e.longName.map (joined parent) }) := by
  unfold expandPath
  dsimp only
  rw [withSeparator_joined]
  congr 4
  funext s
  exact withSeparator_joined parent s

/-- What the loop over the entries keeps: everything it yields has the property `Q`, and what it remembers the property
`P`. -/
theorem processEntries_keeps {P : Nat → Prop} {Q : Item → Prop} (v : Volume) (scanReallocated : Bool)
    (down : Nat → Bytes → Str → List Nat → Seen → Option Walk) (parent : Str) (base : List Nat) (items : List Item)
    (hQ : ∀ item ∈ items, ∀ x, Reports parent base item x → Q x)
    (hP : ∀ e, .file e ∈ items → Remembered v scanReallocated e → P e.firstCluster)
    (hD : ∀ e buf, .file e ∈ items → ¬ Loops base e → Enters v scanReallocated e buf → ∀ seen g seen', Knows P seen →
      down e.firstCluster buf (subName parent e) (e.firstCluster :: base) seen = some (g, seen') → Knows P seen' ∧ ∀ x ∈ g.items, Q x)
    (stack : List Nat) (prev : Option Nat) (seen : Seen) (hp : ∀ p, prev = some p → p ∉ base)
    (hst : stack = base ∨ ∃ p, prev = some p ∧ stack = p :: base) (hk : Knows P seen) (g : Gen Item) (seen' : Seen)
    (h : v.processEntries scanReallocated down parent items stack prev seen = some (g, seen')) : Knows P seen' ∧ ∀ x ∈ g.items, Q x := by
  induction items generalizing stack prev seen g seen' with
  | nil =>
    unfold Volume.processEntries at h
    cases h
    exact ⟨hk, fun x hx => by cases hx⟩
  | cons item items ih =>
    replace ih := ih (fun i hi => hQ i (by simp [hi])) (fun e he => hP e (by simp [he])) (fun e buf he => hD e buf (by simp [he]))
    have hQ0 := hQ item (by simp)
    cases item with
    | orphan name =>
      unfold Volume.processEntries at h
      cases name with
      | none =>
        unfold expandPath at h
        cases h
        exact ⟨hk, fun x hx => by cases hx⟩
      | some name =>
        unfold expandPath at h
        dsimp only at h
        rw [withSeparator_joined] at h
        cases hr : v.processEntries scanReallocated down parent items stack prev seen with
        | none => rw [hr] at h; cases h
        | some w =>
          rw [hr] at h
          cases h
          obtain ⟨i1, i2⟩ := ih stack prev seen hp hst hk _ _ hr
          refine ⟨i1, ?_⟩
          intro x hx
          rcases List.mem_cons.mp hx with rfl | hx
          · exact hQ0 _ rfl
          · exact i2 x hx
    | file e =>
      have hme : Item.file e ∈ Item.file e :: items := by simp
      unfold Volume.processEntries at h
      dsimp only at h
      rw [leave_base hp hst] at h
      by_cases hloop : Loops base e
      · rw [if_pos ((guarded_iff e base).mpr hloop)] at h
        exact ih base prev seen hp (Or.inl rfl) hk _ _ h
      · rw [if_neg (fun hh => hloop ((guarded_iff e base).mp hh)), expand_file] at h
        obtain ⟨hp', hst'⟩ := next_state (e := e) hp hloop
        have hitem := hQ0 _ ⟨hloop, rfl⟩
        generalize Item.file { e with shortName := joined parent e.shortName, longName := e.longName.map (joined parent) } = r0 at h hitem
        dsimp only at h
        by_cases hen : Volume.entered e = true
        · rw [if_neg (by simp [hen])] at h
          have hsubd := (entered_iff e).mp hen
          cases hsub : v.subdirectory scanReallocated e seen with
          | mk r seen1 =>
            have hk1 : Knows P seen1 := subdirectory_knows hsubd hk (hP e hme) hsub
            rw [hsub] at h
            cases r with
            | error x =>
              cases h
              refine ⟨hk1, ?_⟩
              intro y hy
              rcases List.mem_cons.mp hy with rfl | hy
              · exact hitem
              · cases hy
            | ok ob =>
              cases ob with
              | none =>
                dsimp only at h
                cases hr : v.processEntries scanReallocated down parent items
                    (if (Volume.entered e && decide (e.firstCluster ≠ 0)) = true then e.firstCluster :: base else base)
                    (if (Volume.entered e && decide (e.firstCluster ≠ 0)) = true then some e.firstCluster else prev) seen1 with
                | none => rw [hr] at h; cases h
                | some w =>
                  rw [hr] at h
                  cases h
                  obtain ⟨i1, i2⟩ := ih _ _ seen1 hp' hst' hk1 _ _ hr
                  refine ⟨i1, ?_⟩
                  intro x hx
                  rcases List.mem_cons.mp hx with rfl | hx
                  · exact hitem
                  · exact i2 x hx
              | some buf =>
                dsimp only at h
                have hent := subdirectory_Enters hsubd hsub
                have hgd := enters_guard hent
                rw [if_pos hgd] at hp' hst' h
                rw [if_pos hgd] at hst' h
                rw [subName_eq] at h
                cases hd : down e.firstCluster buf (subName parent e) (e.firstCluster :: base) seen1 with
                | none => rw [hd] at h; cases h
                | some w =>
                  obtain ⟨⟨its, err⟩, seen2⟩ := w
                  rw [hd] at h
                  obtain ⟨d1, d2⟩ := hD e buf hme hloop hent seen1 _ _ hk1 hd
                  cases err with
                  | some x =>
                    cases h
                    refine ⟨d1, ?_⟩
                    intro y hy
                    rcases List.mem_cons.mp hy with rfl | hy
                    · exact hitem
                    · exact d2 y hy
                  | none =>
                    dsimp only at h
                    cases hr : v.processEntries scanReallocated down parent items (e.firstCluster :: base) (some e.firstCluster) seen2 with
                    | none => rw [hr] at h; cases h
                    | some w =>
                      rw [hr] at h
                      cases h
                      obtain ⟨i1, i2⟩ := ih _ _ seen2 hp' hst' d1 _ _ hr
                      refine ⟨i1, ?_⟩
                      intro y hy
                      rcases List.mem_cons.mp hy with rfl | hy
                      · exact hitem
                      · rcases List.mem_append.mp hy with hy | hy
                        · exact d2 y hy
                        · exact i2 y hy
        · rw [if_pos hen] at h
          cases hr : v.processEntries scanReallocated down parent items
              (if (Volume.entered e && decide (e.firstCluster ≠ 0)) = true then e.firstCluster :: base else base)
              (if (Volume.entered e && decide (e.firstCluster ≠ 0)) = true then some e.firstCluster else prev) seen with
          | none => rw [hr] at h; cases h
          | some w =>
            rw [hr] at h
            cases h
            obtain ⟨i1, i2⟩ := ih _ _ seen hp' hst' hk _ _ hr
            refine ⟨i1, ?_⟩
            intro x hx
            rcases List.mem_cons.mp hx with rfl | hx
            · exact hitem
            · exact i2 x hx

/-- When the loop over the entries ends without an exception, it yields every entry and goes down into every directory. -/
theorem processEntries_all (v : Volume) (scanReallocated : Bool)
    (down : Nat → Bytes → Str → List Nat → Seen → Option Walk) (parent : Str) (base : List Nat) (items : List Item)
    (stack : List Nat) (prev : Option Nat) (seen : Seen) (hp : ∀ p, prev = some p → p ∉ base)
    (hst : stack = base ∨ ∃ p, prev = some p ∧ stack = p :: base) (g : Gen Item) (seen' : Seen)
    (h : v.processEntries scanReallocated down parent items stack prev seen = some (g, seen')) (hg : g.err = none) :
    (∀ item ∈ items, ∀ x, Reports parent base item x → x ∈ g.items) ∧
    ∀ e buf, .file e ∈ items → ¬ Loops base e → Enters v scanReallocated e buf →
      ∃ seen1 g1 seen2, down e.firstCluster buf (subName parent e) (e.firstCluster :: base) seen1 = some (g1, seen2) ∧ g1.err = none ∧
        ∀ x ∈ g1.items, x ∈ g.items := by
  induction items generalizing stack prev seen g seen' with
  | nil => exact ⟨by simp, by simp⟩
  | cons item items ih =>
    cases item with
    | orphan name =>
      unfold Volume.processEntries at h
      cases name with
      | none =>
        unfold expandPath at h
        cases h
        cases hg
      | some name =>
        unfold expandPath at h
        dsimp only at h
        rw [withSeparator_joined] at h
        cases hr : v.processEntries scanReallocated down parent items stack prev seen with
        | none => rw [hr] at h; cases h
        | some w =>
          rw [hr] at h
          cases h
          obtain ⟨i1, i2⟩ := ih stack prev seen hp hst _ _ hr hg
          refine ⟨?_, ?_⟩
          · intro item hi x hx
            rcases List.mem_cons.mp hi with rfl | hi
            · exact List.mem_cons.mpr (Or.inl hx)
            · exact List.mem_cons_of_mem _ (i1 item hi x hx)
          · intro e buf he hl hen
            obtain ⟨s1, g1, s2, a, b, c⟩ := i2 e buf (by simpa using he) hl hen
            exact ⟨s1, g1, s2, a, b, fun x hx => List.mem_cons_of_mem _ (c x hx)⟩
    | file e0 =>
      unfold Volume.processEntries at h
      dsimp only at h
      rw [leave_base hp hst] at h
      by_cases hloop : Loops base e0
      · rw [if_pos ((guarded_iff e0 base).mpr hloop)] at h
        obtain ⟨i1, i2⟩ := ih base prev seen hp (Or.inl rfl) _ _ h hg
        refine ⟨?_, ?_⟩
        · intro item hi x hx
          rcases List.mem_cons.mp hi with rfl | hi
          · exact absurd hloop hx.1
          · exact i1 item hi x hx
        · intro e buf he hl hen
          rcases List.mem_cons.mp he with he | he
          · cases he; exact absurd hloop hl
          · exact i2 e buf he hl hen
      · rw [if_neg (fun hh => hloop ((guarded_iff e0 base).mp hh)), expand_file] at h
        obtain ⟨hp', hst'⟩ := next_state (e := e0) hp hloop
        have hitem : ∀ x, Reports parent base (.file e0) x →
            x = Item.file { e0 with shortName := joined parent e0.shortName, longName := e0.longName.map (joined parent) } := fun x hx => hx.2
        generalize Item.file { e0 with shortName := joined parent e0.shortName, longName := e0.longName.map (joined parent) } = r0 at h hitem
        dsimp only at h
        by_cases hen0 : Volume.entered e0 = true
        · rw [if_neg (by simp [hen0])] at h
          have hsubd := (entered_iff e0).mp hen0
          cases hsub : v.subdirectory scanReallocated e0 seen with
          | mk r seen1 =>
            rw [hsub] at h
            cases r with
            | error x => cases h; cases hg
            | ok ob =>
              cases ob with
              | none =>
                dsimp only at h
                cases hr : v.processEntries scanReallocated down parent items
                    (if (Volume.entered e0 && decide (e0.firstCluster ≠ 0)) = true then e0.firstCluster :: base else base)
                    (if (Volume.entered e0 && decide (e0.firstCluster ≠ 0)) = true then some e0.firstCluster else prev) seen1 with
                | none => rw [hr] at h; cases h
                | some w =>
                  rw [hr] at h
                  cases h
                  obtain ⟨i1, i2⟩ := ih _ _ seen1 hp' hst' _ _ hr hg
                  refine ⟨?_, ?_⟩
                  · intro item hi x hx
                    rcases List.mem_cons.mp hi with rfl | hi
                    · exact List.mem_cons.mpr (Or.inl (hitem x hx))
                    · exact List.mem_cons_of_mem _ (i1 item hi x hx)
                  · intro e buf he hl hen
                    rcases List.mem_cons.mp he with he | he
                    · cases he
                      obtain ⟨s, hs | ⟨x, hs⟩⟩ := subdirectory_enters hen seen <;>
                      · rw [hs] at hsub
                        cases hsub
                    · obtain ⟨s1, g1, s2, a, b, c⟩ := i2 e buf he hl hen
                      exact ⟨s1, g1, s2, a, b, fun x hx => List.mem_cons_of_mem _ (c x hx)⟩
              | some buf0 =>
                dsimp only at h
                have hent := subdirectory_Enters hsubd hsub
                have hgd := enters_guard hent
                rw [if_pos hgd] at hp' hst' h
                rw [if_pos hgd] at hst' h
                rw [subName_eq] at h
                cases hd : down e0.firstCluster buf0 (subName parent e0) (e0.firstCluster :: base) seen1 with
                | none => rw [hd] at h; cases h
                | some w =>
                  obtain ⟨⟨its, err⟩, seen2⟩ := w
                  rw [hd] at h
                  cases err with
                  | some x => cases h; cases hg
                  | none =>
                    dsimp only at h
                    cases hr : v.processEntries scanReallocated down parent items (e0.firstCluster :: base) (some e0.firstCluster) seen2 with
                    | none => rw [hr] at h; cases h
                    | some w =>
                      rw [hr] at h
                      cases h
                      obtain ⟨i1, i2⟩ := ih _ _ seen2 hp' hst' _ _ hr hg
                      refine ⟨?_, ?_⟩
                      · intro item hi x hx
                        rcases List.mem_cons.mp hi with rfl | hi
                        · exact List.mem_cons.mpr (Or.inl (hitem x hx))
                        · exact List.mem_cons_of_mem _ (List.mem_append_right _ (i1 item hi x hx))
                      · intro e buf he hl hen
                        rcases List.mem_cons.mp he with he | he
                        · cases he
                          obtain ⟨s, hs | ⟨x, hs⟩⟩ := subdirectory_enters hen seen
                          · rw [hs] at hsub
                            cases hsub
                            exact ⟨_, _, seen2, hd, rfl, fun x hx => List.mem_cons_of_mem _ (List.mem_append_left _ hx)⟩
                          · rw [hs] at hsub
                            cases hsub
                        · obtain ⟨s1, g1, s2, a, b, c⟩ := i2 e buf he hl hen
                          exact ⟨s1, g1, s2, a, b, fun x hx => List.mem_cons_of_mem _ (List.mem_append_right _ (c x hx))⟩
        · rw [if_pos hen0] at h
          cases hr : v.processEntries scanReallocated down parent items
              (if (Volume.entered e0 && decide (e0.firstCluster ≠ 0)) = true then e0.firstCluster :: base else base)
              (if (Volume.entered e0 && decide (e0.firstCluster ≠ 0)) = true then some e0.firstCluster else prev) seen with
          | none => rw [hr] at h; cases h
          | some w =>
            rw [hr] at h
            cases h
            obtain ⟨i1, i2⟩ := ih _ _ seen hp' hst' _ _ hr hg
            refine ⟨?_, ?_⟩
            · intro item hi x hx
              rcases List.mem_cons.mp hi with rfl | hi
              · exact List.mem_cons.mpr (Or.inl (hitem x hx))
              · exact List.mem_cons_of_mem _ (i1 item hi x hx)
            · intro e buf he hl hen
              rcases List.mem_cons.mp he with he | he
              · cases he
                exact absurd ((entered_iff e0).mpr hen.1) hen0
              · obtain ⟨s1, g1, s2, a, b, c⟩ := i2 e buf he hl hen
                exact ⟨s1, g1, s2, a, b, fun x hx => List.mem_cons_of_mem _ (c x hx)⟩

/-! ### C81 -/

/-- What is reported is an entry of a directory that can be reached. -/
def Accounted (v : Volume) (codec : Codec) (scanReallocated : Bool) (x : Item) : Prop :=
  ∃ name path buf item, Reached v codec scanReallocated true name path buf ∧
    item ∈ (listDirectory codec (decide (v.table.type = .fat32)) false buf).items ∧ Reports name path item x

/-- What is remembered is of an entry of a directory that can be reached. -/
def Source (v : Volume) (codec : Codec) (scanReallocated : Bool) (c : Nat) : Prop :=
  ∃ name path buf e, Reached v codec scanReallocated true name path buf ∧
    .file e ∈ (listDirectory codec (decide (v.table.type = .fat32)) false buf).items ∧ Remembered v scanReallocated e ∧ c = e.firstCluster

theorem processBuf_keeps (v : Volume) (codec : Codec) (scanReallocated : Bool)
    (fuel : Nat) (name : Str) (path : List Nat) (buf : Bytes) (hr : Reached v codec scanReallocated true name path buf) (seen : Seen)
    (hk : Knows (Source v codec scanReallocated) seen) (g : Gen Item) (seen' : Seen)
    (h : v.processBuf codec scanReallocated fuel buf name path seen = some (g, seen')) :
    Knows (Source v codec scanReallocated) seen' ∧ ∀ x ∈ g.items, Accounted v codec scanReallocated x := by
  induction fuel generalizing name path buf seen g seen' with
  | zero => unfold Volume.processBuf at h; cases h
  | succ fuel ih =>
    unfold Volume.processBuf Volume.oneDirectory at h
    cases ho : openDirectory buf with
    | error e =>
      rw [ho] at h
      cases h
      exact ⟨hk, fun x hx => by cases hx⟩
    | ok _ =>
      rw [ho] at h
      dsimp only at h
      have hlist : entries codec (decide (v.table.type = .fat32)) false buf = listDirectory codec (decide (v.table.type = .fat32)) false buf := by
        unfold listDirectory; rw [ho]
      rw [hlist] at h
      cases hp : v.processEntries scanReallocated (fun _ => v.processBuf codec scanReallocated fuel) name
          (listDirectory codec (decide (v.table.type = .fat32)) false buf).items path none seen with
      | none => rw [hp] at h; cases h
      | some w =>
        obtain ⟨⟨its, err⟩, seen2⟩ := w
        rw [hp] at h
        obtain ⟨k1, k2⟩ := processEntries_keeps (P := Source v codec scanReallocated) (Q := Accounted v codec scanReallocated) v scanReallocated
          (fun _ => v.processBuf codec scanReallocated fuel) name path _
          (fun item hi x hx => ⟨name, path, buf, item, hr, hi, hx⟩)
          (fun e he hrem => ⟨name, path, buf, e, hr, he, hrem, rfl⟩)
          (fun e buf' he hl hen seen g seen' hk hd => ih _ _ buf' (.sub hr he hl hen) seen hk g seen' hd)
          path none seen (by simp) (Or.inl rfl) hk _ _ hp
        cases err <;> (cases h; exact ⟨k1, k2⟩)

theorem orphans_keeps (v : Volume) (codec : Codec) (scanReallocated : Bool) (fuel : Nat) (l : List Nat) (hl : ∀ c ∈ l, Source v codec scanReallocated c)
    (seen : Seen) (hk : Knows (Source v codec scanReallocated) seen) (g : Gen Item) (seen' : Seen)
    (h : v.orphans (v.processBuf codec scanReallocated fuel) l seen = some (g, seen')) : ∀ x ∈ g.items, Accounted v codec scanReallocated x := by
  induction l generalizing seen g seen' with
  | nil =>
    unfold Volume.orphans at h
    cases h
    exact fun x hx => by cases hx
  | cons c l ih =>
    replace ih := ih (fun d hd => hl d (by simp [hd]))
    unfold Volume.orphans at h
    obtain ⟨n, p, b, e, hreach, he, hrem, hre⟩ := hl c (by simp)
    cases hb : v.readChain c none with
    | error x =>
      rw [hb] at h
      dsimp only at h
      split at h
      · exact ih seen hk _ _ h
      · cases h
        exact fun x hx => by cases hx
    | ok buf =>
      rw [hb] at h
      dsimp only at h
      split at h
      · exact ih seen hk _ _ h
      · rename_i hbuf
        have hor : Orphaned v e buf := by
          refine ⟨hrem.2.1, hrem.2.2.1, hrem.2.2.2, by rw [← hre]; exact hb, Nat.le_of_not_lt fun h => hbuf (Or.inl h),
            Classical.byContradiction fun h => hbuf (Or.inr (Or.inr h)), Classical.byContradiction fun h => hbuf (Or.inr (Or.inl h))⟩
        have hr' : Reached v codec scanReallocated true (orphanPath c) [] buf := by
          rw [orphanPath_eq, hre]
          exact .orphan rfl hrem.1 hreach he hor
        cases hp : v.processBuf codec scanReallocated fuel buf (orphanPath c) [] seen with
        | none => rw [hp] at h; cases h
        | some w =>
          obtain ⟨⟨its, err⟩, seen2⟩ := w
          rw [hp] at h
          obtain ⟨k1, k2⟩ := processBuf_keeps v codec scanReallocated fuel _ _ _ hr' seen hk _ _ hp
          cases err with
          | some x => cases h; exact k2
          | none =>
            dsimp only at h
            cases hq : v.orphans (v.processBuf codec scanReallocated fuel) l seen2 with
            | none => rw [hq] at h; cases h
            | some w =>
              rw [hq] at h
              cases h
              intro x hx
              rcases List.mem_append.mp hx with hx | hx
              · exact k2 x hx
              · exact ih seen2 k1 _ _ hq x hx

/-- The root directory is the one of the specification. -/
theorem root_data {v : Volume} {buf : Bytes} {stack : List Nat} (h : v.root = .ok (buf, stack)) : RootData v buf ∧ stack = rootPath v := by
  refine ⟨?_, (root_path h).1⟩
  unfold Volume.root at h
  simp only [bind, Except.bind, pure, Except.pure, throw, throwThe, MonadExceptOf.throw] at h
  unfold RootData
  by_cases ht : v.table.type = .fat32
  · rw [if_pos ht] at h ⊢
    unfold BSBPB.rootClus at h
    split at h
    · cases h
    · rename_i curr hc
      split at hc
      · cases hc
      · cases hc
        split at h
        · cases h
        · rename_i b hb
          cases h
          exact hb
  · rw [if_neg ht] at h ⊢
    dsimp only
    split at h
    · cases h
    rename_i a1 e1
    split at h
    · cases h
    rename_i a2 e2
    split at h
    · cases h
    rename_i a3 e3
    split at h
    · cases h
    rename_i a4 e4
    split at h
    · cases h
    rename_i a5 e5
    split at h
    · cases h
    split at h
    · cases h
    rename_i b hb
    split at h
    · cases h
    cases h
    have h1 : a1 = u16 v.bsbpb.buf 14 := by
      unfold BSBPB.rsvdSecCnt at e1; split at e1 <;> cases e1; rfl
    have h2 : a2 = u16 v.bsbpb.buf 22 := by
      unfold BSBPB.fatSz16 at e2; split at e2 <;> cases e2; rfl
    have h3 : a3 = u8 v.bsbpb.buf 16 := by
      unfold BSBPB.numFats at e3; split at e3 <;> cases e3; rfl
    have h4 : a4 = u16 v.bsbpb.buf 11 := by
      unfold BSBPB.bytsPerSec at e4; split at e4 <;> cases e4; rfl
    have h5 : a5 = u16 v.bsbpb.buf 17 := by
      unfold BSBPB.rootEntCnt at e5; split at e5 <;> cases e5; rfl
    rw [← h1, ← h2, ← h3, ← h4, ← h5, Nat.mul_comm 32 a5]
    unfold seekRead at hb
    split at hb <;> cases hb
    rfl

/-- C81: everything that a walk reports (even one that ends with an exception) is an entry of a directory that can be
reached from the root, or of an orphaned directory, with the path of that directory before its names. -/
theorem C81_sound (v : Volume) (codec : Codec) (scanReallocated : Bool) (order : List Nat → List Nat) (horder : ∀ l, ∀ c ∈ order l, c ∈ l)
    (depth : Nat) (g : Gen Item) (h : v.walk codec scanReallocated order depth = some g) (x : Item) (hx : x ∈ g.items) :
    ∃ name path buf item, Reached v codec scanReallocated true name path buf ∧
      item ∈ (listDirectory codec (decide (v.table.type = .fat32)) false buf).items ∧ Reports name path item x := by
  unfold Volume.walk Volume.walkWith at h
  cases hb : v.root with
  | error x => rw [hb] at h; cases h; cases hx
  | ok r =>
    obtain ⟨buf, stack⟩ := r
    obtain ⟨hroot, hstack⟩ := root_data hb
    rw [hb] at h
    dsimp only at h
    rw [hstack] at h
    cases hp : v.processBuf codec scanReallocated depth buf [] (rootPath v) ⟨[], rootPath v⟩ with
    | none => rw [hp] at h; cases h
    | some w =>
      obtain ⟨⟨its, err⟩, seen⟩ := w
      rw [hp] at h
      obtain ⟨k1, k2⟩ := processBuf_keeps v codec scanReallocated depth _ _ _ (.root hroot) ⟨[], rootPath v⟩ (fun r hr => by cases hr) _ _ hp
      cases err with
      | some y => cases h; exact k2 x hx
      | none =>
        dsimp only at h
        cases hq : v.orphans (v.processBuf codec scanReallocated depth) (order ((seen.reallocated.filter (· ∉ seen.visited)).eraseDups)) seen with
        | none => rw [hq] at h; cases h
        | some w =>
          rw [hq] at h
          cases h
          rcases List.mem_append.mp hx with hx | hx
          · exact k2 x hx
          · exact orphans_keeps v codec scanReallocated depth _
              (fun c hc => k1 c (List.mem_filter.mp (List.mem_eraseDups.mp (horder _ c hc))).1) seen k1 _ _ hq x hx

theorem processBuf_all (v : Volume) (codec : Codec) (scanReallocated : Bool) (fuel : Nat) (name : Str) (path : List Nat) (buf : Bytes) (seen : Seen)
    (g : Gen Item) (seen' : Seen) (h : v.processBuf codec scanReallocated fuel buf name path seen = some (g, seen')) (hg : g.err = none) :
    (∀ item ∈ (listDirectory codec (decide (v.table.type = .fat32)) false buf).items, ∀ x, Reports name path item x → x ∈ g.items) ∧
    ∀ e buf', .file e ∈ (listDirectory codec (decide (v.table.type = .fat32)) false buf).items → ¬ Loops path e → Enters v scanReallocated e buf' →
      ∃ fuel' seen1 g1 seen2, v.processBuf codec scanReallocated fuel' buf' (subName name e) (e.firstCluster :: path) seen1 = some (g1, seen2) ∧ g1.err = none ∧
        ∀ x ∈ g1.items, x ∈ g.items := by
  cases fuel with
  | zero => unfold Volume.processBuf at h; cases h
  | succ fuel =>
    unfold Volume.processBuf Volume.oneDirectory at h
    cases ho : openDirectory buf with
    | error e => rw [ho] at h; cases h; cases hg
    | ok _ =>
      rw [ho] at h
      dsimp only at h
      have hlist : entries codec (decide (v.table.type = .fat32)) false buf = listDirectory codec (decide (v.table.type = .fat32)) false buf := by
        unfold listDirectory; rw [ho]
      rw [hlist] at h
      cases hp : v.processEntries scanReallocated (fun _ => v.processBuf codec scanReallocated fuel) name
          (listDirectory codec (decide (v.table.type = .fat32)) false buf).items path none seen with
      | none => rw [hp] at h; cases h
      | some w =>
        obtain ⟨⟨its, err⟩, seen2⟩ := w
        rw [hp] at h
        cases err with
        | some e => cases h; cases hg
        | none =>
          cases h
          obtain ⟨a1, a2⟩ := processEntries_all v scanReallocated _ name path _ path none seen (by simp) (Or.inl rfl) _ _ hp rfl
          refine ⟨a1, ?_⟩
          intro e buf' he hl hen
          obtain ⟨s1, g1, s2, b1, b2, b3⟩ := a2 e buf' he hl hen
          exact ⟨fuel, s1, g1, s2, b1, b2, b3⟩

/-- C81: when a walk ends without an exception, every entry of every directory that can be reached from the root was
reported, with the path of that directory before its names. -/
theorem C81_complete (v : Volume) (codec : Codec) (scanReallocated : Bool) (order : List Nat → List Nat) (depth : Nat) (g : Gen Item)
    (h : v.walk codec scanReallocated order depth = some g) (hg : g.err = none) (name : Str) (path : List Nat) (buf : Bytes)
    (hr : Reached v codec scanReallocated false name path buf) (item : Item)
    (hi : item ∈ (listDirectory codec (decide (v.table.type = .fat32)) false buf).items) (x : Item) (hx : Reports name path item x) : x ∈ g.items := by
  have key : ∃ fuel seen g1 seen', v.processBuf codec scanReallocated fuel buf name path seen = some (g1, seen') ∧ g1.err = none ∧ ∀ x ∈ g1.items, x ∈ g.items := by
    clear hi hx
    induction hr with
    | root hb =>
      rename_i buf
      unfold Volume.walk Volume.walkWith at h
      cases hrt : v.root with
      | error x => rw [hrt] at h; cases h; cases hg
      | ok r =>
        obtain ⟨buf', stack⟩ := r
        obtain ⟨hroot, hstack⟩ := root_data hrt
        have hbuf : buf' = buf := by
          unfold RootData at hb hroot
          split at hb
          · rename_i ht
            rw [if_pos ht, hb] at hroot
            cases hroot; rfl
          · rename_i ht
            rw [if_neg ht] at hroot
            dsimp only at hb hroot
            rw [hb, hroot]
        subst hbuf
        rw [hrt] at h
        dsimp only at h
        rw [hstack] at h
        cases hp : v.processBuf codec scanReallocated depth buf' [] (rootPath v) ⟨[], rootPath v⟩ with
        | none => rw [hp] at h; cases h
        | some w =>
          obtain ⟨⟨its, err⟩, seen⟩ := w
          rw [hp] at h
          cases err with
          | some x => cases h; cases hg
          | none =>
            dsimp only at h
            cases hq : v.orphans (v.processBuf codec scanReallocated depth) (order ((seen.reallocated.filter (· ∉ seen.visited)).eraseDups)) seen with
            | none => rw [hq] at h; cases h
            | some w =>
              rw [hq] at h
              cases h
              exact ⟨depth, _, _, _, hp, rfl, fun x hx => List.mem_append_left _ hx⟩
    | sub _ he hl hen ih =>
      obtain ⟨fuel, seen, g1, seen', h1, h2, h3⟩ := ih
      obtain ⟨fuel', s1, g2, s2, b1, b2, b3⟩ := (processBuf_all v codec scanReallocated fuel _ _ _ seen g1 seen' h1 h2).2 _ _ he hl hen
      exact ⟨fuel', s1, g2, s2, b1, b2, fun x hx => h3 x (b3 x hx)⟩
    | orphan h => cases h
  obtain ⟨fuel, seen, g1, seen', h1, h2, h3⟩ := key
  exact h3 x ((processBuf_all v codec scanReallocated fuel _ _ _ seen g1 seen' h1 h2).1 item hi x hx)

/-! ### An example -/

/-- The first file of some entries. -/
def firstFile : List Item → Option FileEntry
  | [] => none
  | .file e :: _ => some e
  | _ :: rest => firstFile rest

theorem firstFile_mem {l : List Item} {e : FileEntry} (h : firstFile l = some e) : .file e ∈ l := by
  induction l with
  | nil => cases h
  | cons a l ih =>
    cases a with
    | file e' => cases h; simp
    | orphan => exact List.mem_cons_of_mem _ (ih h)

/-- The first entry of the root directory is the directory `A`, it can be entered and has an entry `B`. -/
def hasAB (v : Volume) (codec : Codec) : Bool :=
  match v.root with
  | .error _ => false
  | .ok (buf, _) =>
    match firstFile (listDirectory codec (decide (v.table.type = .fat32)) false buf).items with
    | none => false
    | some e =>
      e.isDirectory && decide (e.isDeleted = some false) && decide (e.longName = none) && decide (e.shortName = Str.ofString "A") &&
      decide (e.firstCluster ∉ rootPath v) && decide (v.table.isAllocated e.firstCluster = .ok (some true)) &&
      match v.readChain e.firstCluster none with
      | .error _ => false
      | .ok buf' => decide (buf' ≠ []) && (listDirectory codec (decide (v.table.type = .fat32)) false buf').items.any fun
        | .file e' => decide (e'.shortName = Str.ofString "B") && decide (e'.longName = none) && decide (e'.firstCluster ∉ e.firstCluster :: rootPath v)
        | _ => false

theorem hasAB_reached {v : Volume} {codec : Codec} (h : hasAB v codec = true) : ∃ path buf e, Reached v codec false false (Str.ofString "/A") path buf ∧
    .file e ∈ (listDirectory codec (decide (v.table.type = .fat32)) false buf).items ∧
    Reports (Str.ofString "/A") path (.file e) (.file { e with shortName := Str.ofString "/A/B", longName := none }) := by
  unfold hasAB at h
  cases hb : v.root with
  | error x => rw [hb] at h; cases h
  | ok r =>
    obtain ⟨buf, stack⟩ := r
    rw [hb] at h
    dsimp only at h
    cases hf : firstFile (listDirectory codec (decide (v.table.type = .fat32)) false buf).items with
    | none => rw [hf] at h; cases h
    | some e =>
      rw [hf] at h
      dsimp only at h
      simp only [Bool.and_eq_true, decide_eq_true_eq] at h
      obtain ⟨⟨⟨⟨⟨⟨h1, h2⟩, h2'⟩, h3⟩, h4⟩, h5⟩, h6⟩ := h
      cases hb' : v.readChain e.firstCluster none with
      | error x => rw [hb'] at h6; cases h6
      | ok buf' =>
        rw [hb'] at h6
        simp only [Bool.and_eq_true, decide_eq_true_eq, List.any_eq_true] at h6
        obtain ⟨h6, item, h7, h8⟩ := h6
        cases item with
        | orphan => cases h8
        | file e' =>
          simp only [Bool.and_eq_true, decide_eq_true_eq] at h8
          have hr := Reached.sub (withOrphans := false) (scanReallocated := false) (Reached.root (root_data hb).1) (firstFile_mem hf) (fun hl => h4 hl.2.2)
            ⟨⟨h1, by rw [h3]; decide, by rw [h3]; decide⟩, ⟨true, h5, by rw [h2]; simp⟩, buf', hb', h6, by rw [h2]; simp, Or.inr ⟨by rw [h2]; simp, rfl⟩⟩
          rw [h2', h3] at hr
          refine ⟨_, _, e', hr, h7, fun hl => h8.2 hl.2.2, ?_⟩
          rw [h8.1.1, h8.1.2, show joined (Str.ofString "/A") (Str.ofString "B") = Str.ofString "/A/B" by decide]
          rfl

/-- The hypotheses of `C81_complete` hold for the volume with loops. -/
example : ∃ v, openVolume loopVolume 0 none = .ok v ∧ ∃ path buf e, Reached v ascii false false (Str.ofString "/A") path buf ∧
    .file e ∈ (listDirectory ascii (decide (v.table.type = .fat32)) false buf).items ∧
    Reports (Str.ofString "/A") path (.file e) (.file { e with shortName := Str.ofString "/A/B", longName := none }) := by
  have this : (match openVolume loopVolume 0 none with | .ok v => hasAB v ascii | .error _ => false) = true := by decide +kernel
  cases ho : openVolume loopVolume 0 none with
  | error e => rw [ho] at this; cases this
  | ok v => rw [ho] at this; exact ⟨v, rfl, hasAB_reached this⟩

end Verif.Props
