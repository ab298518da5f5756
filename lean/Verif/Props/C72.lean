/-
C72: walking an exFAT volume terminates.  C80: what a walk reports.
-/
import Verif.Spec.ExFATWalk
import Verif.Props.C69_C70
import Verif.Basic.Pigeonhole
namespace Verif.Props.ExFAT
open Verif.ExFAT Verif.Spec.ExFAT Volume

/-! ### C72 -/

theorem isAllocated_le {b : Bitmap} {c : Nat} {r : Bool} (h : b.isAllocated c = .ok (some r)) : 2 ≤ c ∧ c ≤ b.lastValidCluster := by
  unfold Bitmap.isAllocated at h
  split at h
  · cases h
  · split at h
    · cases h
    · omega

/-- When a subdirectory is entered. -/
theorem subdirectory_some {v : Volume} {scanReallocated : Bool} {e : FileEntry} {seen seen' : Seen} {buf : Bytes}
    (h : v.subdirectory scanReallocated e seen = (.ok (some buf), seen')) : Enters v scanReallocated e buf := by
  unfold Volume.subdirectory at h
  split at h
  · cases h
  · cases h
  rename_i allocated ha
  split at h
  · cases h
  rename_i hd
  split at h
  · split at h <;> cases h
  rename_i hr
  dsimp only at h
  split at h
  · split at h <;> cases h
  rename_i b hb
  split at h
  · cases h
  rename_i hne
  cases h
  refine ⟨by simpa using hd, ⟨allocated, ha, fun h1 h2 => ?_⟩, hb, by simpa using hne⟩
  cases allocated
  · rfl
  · exact absurd ⟨h1, h2, rfl⟩ hr

theorem enters_le {v : Volume} {scanReallocated : Bool} {e : FileEntry} {buf : Bytes} (h : Enters v scanReallocated e buf) :
    2 ≤ e.firstCluster ∧ e.firstCluster ≤ v.bitmap.lastValidCluster := by
  obtain ⟨_, ⟨a, ha, _⟩, _⟩ := h
  exact isAllocated_le ha

theorem guarded_iff (e : FileEntry) (path : List Nat) :
    ((e.isDirectory && decide (e.firstCluster ≠ 0)) = true ∧ e.firstCluster ∈ path) ↔ Loops path e := by
  unfold Loops
  rw [Bool.and_eq_true, decide_eq_true_eq, and_assoc]

/-- The calls of `down`: two functions that agree on the directories that are not on the path are as good. -/
theorem processEntries_congr (v : Volume) (scanReallocated : Bool) (parentPath : Str) (base : List Nat)
    (d1 d2 : Nat → Bytes → Str → List Nat → Seen → Option Walk)
    (h : ∀ c, c ∉ base → c ≤ lastCluster v → ∀ buf s seen, d1 c buf s (c :: base) seen = d2 c buf s (c :: base) seen ∧ d1 c buf s (c :: base) seen ≠ none)
    (items : List Item) (stack : List Nat) (prev : Option Nat) (seen : Seen)
    (hp : ∀ p, prev = some p → p ∉ base) (hst : stack = base ∨ ∃ p, prev = some p ∧ stack = p :: base) :
    v.processEntries scanReallocated d1 parentPath items stack prev seen = v.processEntries scanReallocated d2 parentPath items stack prev seen ∧
    v.processEntries scanReallocated d1 parentPath items stack prev seen ≠ none := by
  induction items generalizing stack prev seen with
  | nil => exact ⟨rfl, by simp [Volume.processEntries]⟩
  | cons item items ih =>
    cases item with
    | orphan name =>
      unfold Volume.processEntries
      obtain ⟨i1, i2⟩ := ih stack prev seen hp hst
      rw [← i1]
      refine ⟨rfl, ?_⟩
      cases hr : v.processEntries scanReallocated d1 parentPath items stack prev seen with
      | none => exact absurd hr i2
      | some r => simp
    | label name =>
      unfold Volume.processEntries
      obtain ⟨i1, i2⟩ := ih stack prev seen hp hst
      rw [← i1]
      refine ⟨rfl, ?_⟩
      cases hr : v.processEntries scanReallocated d1 parentPath items stack prev seen with
      | none => exact absurd hr i2
      | some r => simp
    | bitmap a b c =>
      unfold Volume.processEntries
      exact ih stack prev seen hp hst
    | file e =>
      unfold Volume.processEntries
      dsimp only
      have hstack : Volume.leave prev stack = base := by
        unfold Volume.leave
        cases prev with
        | none =>
          rcases hst with h | ⟨p, hp', _⟩
          · exact h
          · cases hp'
        | some p =>
          dsimp only
          rcases hst with h | ⟨q, hq, h⟩
          · rw [h]; exact List.erase_of_not_mem (hp p rfl)
          · cases hq; rw [h]; simp
      rw [hstack]
      generalize hg : (e.isDirectory && decide (e.firstCluster ≠ 0)) = guarded
      by_cases hloop : guarded = true ∧ e.firstCluster ∈ base
      · rw [if_pos hloop, if_pos hloop]
        exact ih base prev seen hp (Or.inl rfl)
      · rw [if_neg hloop, if_neg hloop]
        have hp' : ∀ p, (if guarded = true then some e.firstCluster else prev) = some p → p ∉ base := by
          intro p
          by_cases hgd : guarded = true
          · rw [if_pos hgd]
            intro he
            cases he
            exact fun hm => hloop ⟨hgd, hm⟩
          · rw [if_neg hgd]
            exact hp p
        have hst' : (if guarded = true then e.firstCluster :: base else base) = base ∨
            ∃ p, (if guarded = true then some e.firstCluster else prev) = some p ∧ (if guarded = true then e.firstCluster :: base else base) = p :: base := by
          by_cases hgd : guarded = true
          · rw [if_pos hgd, if_pos hgd]
            exact Or.inr ⟨_, rfl, rfl⟩
          · rw [if_neg hgd]; exact Or.inl rfl
        have hrest : ∀ seen, _ := fun seen => ih _ _ seen hp' hst'
        cases hsub : v.subdirectory scanReallocated e seen with
        | mk r seen1 =>
          cases r with
          | error x => exact ⟨rfl, by simp⟩
          | ok ob =>
            cases ob with
            | none =>
              dsimp only
              obtain ⟨i1, i2⟩ := hrest seen1
              rw [← i1]
              refine ⟨rfl, ?_⟩
              cases hr : v.processEntries scanReallocated d1 parentPath items _ _ seen1 with
              | none => exact absurd hr i2
              | some r => simp
            | some buf =>
              dsimp only
              have hen := subdirectory_some hsub
              obtain ⟨h0, hle⟩ := enters_le hen
              have hgd : guarded = true := by rw [← hg, hen.1]; simp; omega
              have hnb : e.firstCluster ∉ base := fun hm => hloop ⟨hgd, hm⟩
              rw [if_pos hgd] at hrest ⊢
              obtain ⟨j1, j2⟩ := h e.firstCluster hnb (by unfold lastCluster; omega) buf (parentPath ++ [0x2F] ++ e.name) seen1
              rw [← j1]
              cases hd : d1 e.firstCluster buf (parentPath ++ [0x2F] ++ e.name) (e.firstCluster :: base) seen1 with
              | none => exact absurd hd j2
              | some w =>
                obtain ⟨⟨its, err⟩, seen2⟩ := w
                cases err with
                | some x => exact ⟨rfl, by simp⟩
                | none =>
                  dsimp only
                  obtain ⟨i1, i2⟩ := hrest seen2
                  rw [← i1]
                  refine ⟨rfl, ?_⟩
                  cases hr : v.processEntries scanReallocated d1 parentPath items _ _ seen2 with
                  | none => exact absurd hr i2
                  | some r => simp

/-- The guard finds nothing, and the limit is never reached. -/
theorem guarded_eq (v : Volume) (scanReallocated : Bool) (n : Nat) (path : List Nat) (hnodup : path.Nodup)
    (hle : ∀ c ∈ path, c ≤ lastCluster v) (hn : lastCluster v + 2 ≤ path.length + n)
    (f1 f2 : Nat) (h1 : n ≤ f1) (h2 : n ≤ f2) (buf : Bytes) (s : Str) (seen : Seen) :
    guarded v scanReallocated f1 path buf s path seen = v.processBuf scanReallocated f2 buf s path seen ∧
    guarded v scanReallocated f1 path buf s path seen ≠ none := by
  have hlen : path.length ≤ lastCluster v + 1 := nodup_bounded_length _ path hnodup (by
    intro c hc
    have := hle c hc
    omega)
  induction n generalizing path f1 f2 buf s seen with
  | zero => omega
  | succ n ih =>
    obtain ⟨g1, rfl⟩ : ∃ g, f1 = g + 1 := ⟨f1 - 1, by omega⟩
    obtain ⟨g2, rfl⟩ : ∃ g, f2 = g + 1 := ⟨f2 - 1, by omega⟩
    unfold guarded Volume.processBuf Volume.oneDirectory
    cases openDirectory buf with
    | error e => exact ⟨rfl, by simp⟩
    | ok _ =>
      dsimp only
      obtain ⟨e1, e2⟩ := processEntries_congr v scanReallocated s path
        (fun cluster => if cluster ∈ path then fun _ _ _ _ => none else guarded v scanReallocated g1 (cluster :: path))
        (fun _ => v.processBuf scanReallocated g2) (by
          intro c hc hcl buf s seen
          rw [if_neg hc]
          have hnd : (c :: path).Nodup := List.nodup_cons.mpr ⟨hc, hnodup⟩
          have hle' : ∀ x ∈ c :: path, x ≤ lastCluster v := by
            intro x hx
            rcases List.mem_cons.mp hx with rfl | hx
            · exact hcl
            · exact hle x hx
          exact ih (c :: path) hnd hle' (by rw [List.length_cons]; omega) g1 g2 (by omega) (by omega) buf s seen
            (nodup_bounded_length _ _ hnd (by
              intro x hx
              have := hle' x hx
              omega)))
        (entries (decide (s.length = 0)) buf).items path none seen (by simp) (Or.inl rfl)
      rw [← e1]
      refine ⟨rfl, ?_⟩
      cases hr : v.processEntries scanReallocated (fun cluster => if cluster ∈ path then fun _ _ _ _ => none else guarded v scanReallocated g1 (cluster :: path))
        s (entries (decide (s.length = 0)) buf).items path none seen with
      | none => exact absurd hr e2
      | some w =>
        obtain ⟨⟨its, err⟩, seen2⟩ := w
        cases err <;> simp

theorem orphans_eq (v : Volume) (p1 p2 : Bytes → Str → List Nat → Seen → Option Walk)
    (h : ∀ buf s seen, p1 buf s [] seen = p2 buf s [] seen ∧ p1 buf s [] seen ≠ none) (l : List Nat) (seen : Seen) :
    v.orphans p1 l seen = v.orphans p2 l seen ∧ v.orphans p1 l seen ≠ none := by
  induction l generalizing seen with
  | nil => exact ⟨rfl, by simp [Volume.orphans]⟩
  | cons c l ih =>
    unfold Volume.orphans
    cases seen.reallocated.find? (·.firstCluster = c) with
    | none => exact ⟨rfl, by simp⟩
    | some r =>
    dsimp only
    cases v.readChain c (some r.size) r.noFatChain with
    | error e =>
      dsimp only
      split
      · exact ih seen
      · exact ⟨rfl, by simp⟩
    | ok buf =>
      dsimp only
      split
      · exact ih seen
      · obtain ⟨h1, h2⟩ := h buf (orphanPath c) seen
        rw [← h1]
        cases hp : p1 buf (orphanPath c) [] seen with
        | none => exact absurd hp h2
        | some w =>
          obtain ⟨⟨its, err⟩, seen2⟩ := w
          cases err with
          | some x => exact ⟨rfl, by simp⟩
          | none =>
            dsimp only
            obtain ⟨i1, i2⟩ := ih seen2
            rw [← i1]
            refine ⟨rfl, ?_⟩
            cases hr : v.orphans p1 l seen2 with
            | none => exact absurd hr i2
            | some r => simp

/-- The walk is the walk with the guard, which has a result. -/
theorem walk_guarded (v : Volume) (scanReallocated : Bool) (order : List Nat → List Nat) (f1 f2 : Nat)
    (h1 : lastCluster v + 2 ≤ f1) (h2 : lastCluster v + 2 ≤ f2) :
    v.walkWith (guarded v scanReallocated f1 [v.br.firstClusterOfRootDirectory]) (guarded v scanReallocated f1 []) order = v.walk scanReallocated order f2 ∧
    v.walkWith (guarded v scanReallocated f1 [v.br.firstClusterOfRootDirectory]) (guarded v scanReallocated f1 []) order ≠ none := by
  unfold Volume.walk Volume.walkWith
  dsimp only
  cases v.readChain v.br.firstClusterOfRootDirectory none false with
  | error e => exact ⟨rfl, by simp⟩
  | ok buf =>
    dsimp only
    obtain ⟨g1, g2⟩ := guarded_eq v scanReallocated _ [v.br.firstClusterOfRootDirectory] (by simp)
      (by simp only [List.mem_singleton, forall_eq]; unfold lastCluster; omega) (Nat.le_add_left _ _) f1 f2 h1 h2 buf [] ⟨[], []⟩
    rw [← g1]
    cases hp : guarded v scanReallocated f1 [v.br.firstClusterOfRootDirectory] buf [] [v.br.firstClusterOfRootDirectory] ⟨[], []⟩ with
    | none => exact absurd hp g2
    | some w =>
      obtain ⟨⟨its, err⟩, seen⟩ := w
      cases err with
      | some x => exact ⟨rfl, by simp⟩
      | none =>
        dsimp only
        obtain ⟨o1, o2⟩ := orphans_eq v (guarded v scanReallocated f1 []) (v.processBuf scanReallocated f2)
          (fun buf s seen => guarded_eq v scanReallocated _ [] List.nodup_nil (by simp) (Nat.le_add_left _ _) f1 f2 h1 h2 buf s seen)
          (order ((seen.reallocated.map (·.firstCluster)).filter (· ∉ seen.visited))) seen
        rw [← o1]
        refine ⟨rfl, ?_⟩
        cases hq : v.orphans (guarded v scanReallocated f1 []) (order ((seen.reallocated.map (·.firstCluster)).filter (· ∉ seen.visited))) seen with
        | none => exact absurd hq o2
        | some w => simp

/-- C72: walking terminates, for every volume: some depth of the recursion is enough (one more than the number of
the last cluster), and then more makes no difference. -/
theorem C72_terminates (v : Volume) (scanReallocated : Bool) (order : List Nat → List Nat) :
    ∃ g, ∀ depth, lastCluster v + 2 ≤ depth → v.walk scanReallocated order depth = some g := by
  have h := walk_guarded v scanReallocated order _ (lastCluster v + 2) (Nat.le_refl _) (Nat.le_refl _)
  cases hg : v.walk scanReallocated order (lastCluster v + 2) with
  | none => rw [hg] at h; exact absurd h.1 h.2
  | some g =>
    refine ⟨g, fun depth hd => ?_⟩
    have h' := walk_guarded v scanReallocated order (lastCluster v + 2) depth (Nat.le_refl _) hd
    rw [← h'.1, h.1, hg]

/-- C72: no directory is entered while it is on the path: the walk has the same result as the walk with a guard
that gives no result in such a case.  Partial: the path below an orphan directory starts with the directories in it,
the orphan directory itself is not on it; see `C72_orphan_entered_again`. -/
theorem C72_no_loop_partial (v : Volume) (scanReallocated : Bool) (order : List Nat → List Nat) (depth : Nat)
    (h : lastCluster v + 2 ≤ depth) :
    ∃ g, v.walk scanReallocated order depth = some g ∧
      v.walkWith (guarded v scanReallocated depth [v.br.firstClusterOfRootDirectory]) (guarded v scanReallocated depth []) order = some g := by
  obtain ⟨h1, h2⟩ := walk_guarded v scanReallocated order depth depth h h
  cases hg : v.walk scanReallocated order depth with
  | none => rw [hg] at h1; exact absurd h1 h2
  | some g => exact ⟨g, rfl, by rw [h1, hg]⟩

end Verif.Props.ExFAT
