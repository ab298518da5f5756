/-
C63: walking a FAT volume terminates.  C64: what can stop it.
-/
import Verif.Spec.FATWalk
import Verif.Props.C57
import Verif.Props.C60
namespace Verif.Props
open Verif.FAT Verif.Spec.FAT Volume

/-! ### C63 -/

theorem isAllocated_le {t : Table} {c : Nat} {r : Bool} (h : t.isAllocated c = .ok (some r)) : (c : Int) ≤ t.lastValidCluster := by
  unfold Table.isAllocated at h
  split at h
  · rename_i h'; exact getElement_le h'
  · split at h <;> cases h

/-- A directory that is entered starts in a cluster of the volume. -/
theorem subdirectory_some {v : Volume} {scanReallocated : Bool} {e : FileEntry} {seen seen' : Seen} {buf : Bytes}
    (h : v.subdirectory scanReallocated e seen = (.ok (some buf), seen')) :
    (e.firstCluster : Int) ≤ v.table.lastValidCluster ∧ e.firstCluster ≠ 0 := by
  unfold Volume.subdirectory at h
  dsimp only at h
  split at h
  · cases h
  · cases h
  rename_i allocated ha
  refine ⟨isAllocated_le ha, ?_⟩
  intro h0
  split at h
  · cases h
  · rw [h0] at h
    have : v.readChain 0 none = .ok [] := by
      unfold Volume.readChain
      rw [C56_reserved _ _ (by decide)]
      rfl
    rw [this] at h
    simp only [List.length_nil, if_true] at h
    cases h

theorem entered_guarded {e : FileEntry} (he : Volume.entered e = true) (h0 : e.firstCluster ≠ 0) :
    (Volume.entered e && decide (e.firstCluster ≠ 0)) = true := by
  simp [he, h0]

/-- The calls of `down`: two functions that agree on the directories that are not on the path are as good. -/
theorem processEntries_congr (v : Volume) (scanReallocated : Bool) (parentPath : Str) (base : List Nat)
    (d1 d2 : Nat → Bytes → Str → List Nat → Seen → Option Walk)
    (h : ∀ c, c ∉ base → (c : Int) ≤ v.table.lastValidCluster → ∀ buf s seen, d1 c buf s (c :: base) seen = d2 c buf s (c :: base) seen ∧ d1 c buf s (c :: base) seen ≠ none)
    (items : List Item) (stack : List Nat) (prev : Option Nat) (seen : Seen)
    (hp : ∀ p, prev = some p → p ∉ base) (hst : stack = base ∨ ∃ p, prev = some p ∧ stack = p :: base) :
    v.processEntries scanReallocated d1 parentPath items stack prev seen = v.processEntries scanReallocated d2 parentPath items stack prev seen ∧
    v.processEntries scanReallocated d1 parentPath items stack prev seen ≠ none := by
  induction items generalizing stack prev seen with
  | nil => exact ⟨rfl, by simp [Volume.processEntries]⟩
  | cons item items ih =>
    cases item with
    | orphan name =>
      unfold Volume.processEntries
      cases expandPath parentPath (.orphan name) with
      | error e => exact ⟨rfl, by simp⟩
      | ok item =>
        dsimp only
        obtain ⟨i1, i2⟩ := ih stack prev seen hp hst
        rw [← i1]
        refine ⟨rfl, ?_⟩
        cases hr : v.processEntries scanReallocated d1 parentPath items stack prev seen with
        | none => exact absurd hr i2
        | some r => simp
    | file e =>
      unfold Volume.processEntries
      dsimp only
      have hstack : Volume.leave prev stack = base := by
        unfold Volume.leave
        cases prev with
        | none =>
          rcases hst with h | ⟨p, hp', _⟩
          · exact h
          · cases hp'
        | some p =>
          dsimp only
          rcases hst with h | ⟨q, hq, h⟩
          · rw [h]; exact List.erase_of_not_mem (hp p rfl)
          · cases hq; rw [h]; simp
      rw [hstack]
      generalize hg : (Volume.entered e && decide (e.firstCluster ≠ 0)) = guarded
      by_cases hloop : guarded = true ∧ e.firstCluster ∈ base
      · rw [if_pos hloop, if_pos hloop]
        exact ih base prev seen hp (Or.inl rfl)
      · rw [if_neg hloop, if_neg hloop]
        have hp' : ∀ p, (if guarded = true then some e.firstCluster else prev) = some p → p ∉ base := by
          intro p
          by_cases hgd : guarded = true
          · rw [if_pos hgd]
            intro he
            cases he
            exact fun hm => hloop ⟨hgd, hm⟩
          · rw [if_neg hgd]
            exact hp p
        have hst' : (if guarded = true then e.firstCluster :: base else base) = base ∨
            ∃ p, (if guarded = true then some e.firstCluster else prev) = some p ∧ (if guarded = true then e.firstCluster :: base else base) = p :: base := by
          by_cases hgd : guarded = true
          · rw [if_pos hgd, if_pos hgd]
            exact Or.inr ⟨_, rfl, rfl⟩
          · rw [if_neg hgd]; exact Or.inl rfl
        have hrest : ∀ seen, _ := fun seen => ih _ _ seen hp' hst'
        cases expandPath parentPath (.file e) with
        | error x => exact ⟨rfl, by simp⟩
        | ok item =>
          dsimp only
          by_cases he : ¬ Volume.entered e = true
          · rw [if_pos he, if_pos he]
            obtain ⟨i1, i2⟩ := hrest seen
            rw [← i1]
            refine ⟨rfl, ?_⟩
            cases hr : v.processEntries scanReallocated d1 parentPath items _ _ seen with
            | none => exact absurd hr i2
            | some r => simp
          · rw [if_neg he, if_neg he]
            cases hsub : v.subdirectory scanReallocated e seen with
            | mk r seen1 =>
              cases r with
              | error x => exact ⟨rfl, by simp⟩
              | ok ob =>
                cases ob with
                | none =>
                  dsimp only
                  obtain ⟨i1, i2⟩ := hrest seen1
                  rw [← i1]
                  refine ⟨rfl, ?_⟩
                  cases hr : v.processEntries scanReallocated d1 parentPath items _ _ seen1 with
                  | none => exact absurd hr i2
                  | some r => simp
                | some buf =>
                  dsimp only
                  obtain ⟨hle, h0⟩ := subdirectory_some hsub
                  have hgd : guarded = true := by rw [← hg]; exact entered_guarded (by simpa using he) h0
                  have hnb : e.firstCluster ∉ base := fun hm => hloop ⟨hgd, hm⟩
                  rw [if_pos hgd] at hrest ⊢
                  obtain ⟨j1, j2⟩ := h e.firstCluster hnb hle buf (parentPath ++ [0x2F] ++ preferredName e) seen1
                  rw [← j1]
                  cases hd : d1 e.firstCluster buf (parentPath ++ [0x2F] ++ preferredName e) (e.firstCluster :: base) seen1 with
                  | none => exact absurd hd j2
                  | some w =>
                    obtain ⟨⟨its, err⟩, seen2⟩ := w
                    cases err with
                    | some x => exact ⟨rfl, by simp⟩
                    | none =>
                      dsimp only
                      obtain ⟨i1, i2⟩ := hrest seen2
                      rw [← i1]
                      refine ⟨rfl, ?_⟩
                      cases hr : v.processEntries scanReallocated d1 parentPath items _ _ seen2 with
                      | none => exact absurd hr i2
                      | some r => simp

/-- The guard finds nothing, and the limit is never reached. -/
theorem guarded_eq (v : Volume) (codec : Codec) (scanReallocated : Bool) (n : Nat) (path : List Nat) (hnodup : path.Nodup)
    (hle : ∀ c ∈ path, (c : Int) ≤ v.table.lastValidCluster) (hn : v.table.lastValidCluster.toNat + 2 ≤ path.length + n)
    (f1 f2 : Nat) (h1 : n ≤ f1) (h2 : n ≤ f2) (buf : Bytes) (s : Str) (seen : Seen) :
    guarded v codec scanReallocated f1 path buf s path seen = v.processBuf codec scanReallocated f2 buf s path seen ∧
    guarded v codec scanReallocated f1 path buf s path seen ≠ none := by
  have hlen : path.length ≤ v.table.lastValidCluster.toNat + 1 := nodup_bounded_length _ path hnodup (by
    intro c hc
    have := hle c hc
    omega)
  induction n generalizing path f1 f2 buf s seen with
  | zero => omega
  | succ n ih =>
    obtain ⟨g1, rfl⟩ : ∃ g, f1 = g + 1 := ⟨f1 - 1, by omega⟩
    obtain ⟨g2, rfl⟩ : ∃ g, f2 = g + 1 := ⟨f2 - 1, by omega⟩
    unfold guarded Volume.processBuf Volume.oneDirectory
    cases openDirectory buf with
    | error e => exact ⟨rfl, by simp⟩
    | ok _ =>
      dsimp only
      obtain ⟨e1, e2⟩ := processEntries_congr v scanReallocated s path
        (fun cluster => if cluster ∈ path then fun _ _ _ _ => none else guarded v codec scanReallocated g1 (cluster :: path))
        (fun _ => v.processBuf codec scanReallocated g2) (by
          intro c hc hcl buf s seen
          rw [if_neg hc]
          have hnd : (c :: path).Nodup := List.nodup_cons.mpr ⟨hc, hnodup⟩
          have hle' : ∀ x ∈ c :: path, (x : Int) ≤ v.table.lastValidCluster := by
            intro x hx
            rcases List.mem_cons.mp hx with rfl | hx
            · exact hcl
            · exact hle x hx
          exact ih (c :: path) hnd hle' (by rw [List.length_cons]; omega) g1 g2 (by omega) (by omega) buf s seen
            (nodup_bounded_length _ _ hnd (by
              intro x hx
              have := hle' x hx
              omega)))
        (entries codec (decide (v.table.type = .fat32)) false buf).items path none seen (by simp) (Or.inl rfl)
      rw [← e1]
      refine ⟨rfl, ?_⟩
      cases hr : v.processEntries scanReallocated (fun cluster => if cluster ∈ path then fun _ _ _ _ => none else guarded v codec scanReallocated g1 (cluster :: path))
        s (entries codec (decide (v.table.type = .fat32)) false buf).items path none seen with
      | none => exact absurd hr e2
      | some w =>
        obtain ⟨⟨its, err⟩, seen2⟩ := w
        cases err <;> simp

theorem orphans_eq (v : Volume) (p1 p2 : Bytes → Str → List Nat → Seen → Option Walk)
    (h : ∀ buf s seen, p1 buf s [] seen = p2 buf s [] seen ∧ p1 buf s [] seen ≠ none) (l : List Nat) (seen : Seen) :
    v.orphans p1 l seen = v.orphans p2 l seen ∧ v.orphans p1 l seen ≠ none := by
  induction l generalizing seen with
  | nil => exact ⟨rfl, by simp [Volume.orphans]⟩
  | cons c l ih =>
    unfold Volume.orphans
    cases v.readChain c none with
    | error e =>
      dsimp only
      split
      · exact ih seen
      · exact ⟨rfl, by simp⟩
    | ok buf =>
      dsimp only
      split
      · exact ih seen
      · obtain ⟨h1, h2⟩ := h buf (orphanPath c) seen
        rw [← h1]
        cases hp : p1 buf (orphanPath c) [] seen with
        | none => exact absurd hp h2
        | some w =>
          obtain ⟨⟨its, err⟩, seen2⟩ := w
          cases err with
          | some x => exact ⟨rfl, by simp⟩
          | none =>
            dsimp only
            obtain ⟨i1, i2⟩ := ih seen2
            rw [← i1]
            refine ⟨rfl, ?_⟩
            cases hr : v.orphans p1 l seen2 with
            | none => exact absurd hr i2
            | some r => simp

theorem chain_first {t : Table} {c : Nat} {l : List (Option Nat)} (h2 : 2 ≤ c) (h : t.chain c = .ok l) : (c : Int) ≤ t.lastValidCluster := by
  have hb : c ≠ badMark t.type := by
    intro hb
    have := (C56_error t c .FileAllocationTableException).mpr (Or.inl ⟨hb, rfl⟩)
    rw [h] at this
    cases this
  obtain ⟨clusters, last, next, hp, _, _, hr⟩ := (C56_followed t c h2 hb l).mp h
  refine ((C56_clusters t c l h).1 c ?_).1
  have : c ∈ clusters := List.mem_of_mem_head? (by rw [hp.starts]; rfl)
  rcases hr with ⟨_, _, rfl⟩ | ⟨_, rfl⟩
  · exact List.mem_map.mpr ⟨c, this, rfl⟩
  · exact List.mem_append.mpr (Or.inl (List.mem_map.mpr ⟨c, this, rfl⟩))

theorem root_path {v : Volume} {buf : Bytes} {stack : List Nat} (h : v.root = .ok (buf, stack)) :
    stack = rootPath v ∧ ∀ c ∈ stack, (c : Int) ≤ v.table.lastValidCluster := by
  unfold Volume.root at h
  simp only [bind, Except.bind, pure, Except.pure, throw, throwThe, MonadExceptOf.throw] at h
  unfold rootPath
  by_cases ht : v.table.type = .fat32
  · rw [if_pos ht] at h ⊢
    unfold BSBPB.rootClus at h
    split at h
    · cases h
    · rename_i curr hc
      split at hc
      · cases hc
      · rename_i h2
        cases hc
        split at h
        · cases h
        · rename_i b hb
          cases h
          refine ⟨rfl, ?_⟩
          intro c hc
          rw [List.mem_singleton] at hc
          subst hc
          unfold Volume.readChain at hb
          split at hb
          · cases hb
          · rename_i l hl
            exact chain_first (by omega) hl
  · rw [if_neg ht] at h ⊢
    repeat' (split at h; · cases h)
    cases h
    exact ⟨rfl, by simp⟩

/-- The walk is the walk with the guard, which has a result. -/
theorem walk_guarded (v : Volume) (codec : Codec) (scanReallocated : Bool) (order : List Nat → List Nat) (f1 f2 : Nat)
    (h1 : v.table.lastValidCluster.toNat + 2 ≤ f1) (h2 : v.table.lastValidCluster.toNat + 2 ≤ f2) :
    v.walkWith (guarded v codec scanReallocated f1 (rootPath v)) (guarded v codec scanReallocated f1 []) order = v.walk codec scanReallocated order f2 ∧
    v.walkWith (guarded v codec scanReallocated f1 (rootPath v)) (guarded v codec scanReallocated f1 []) order ≠ none := by
  unfold Volume.walk Volume.walkWith
  cases hr : v.root with
  | error e => exact ⟨rfl, by simp⟩
  | ok p =>
    obtain ⟨buf, stack⟩ := p
    dsimp only
    obtain ⟨hst, hle⟩ := root_path hr
    have hnd : stack.Nodup := by
      rw [hst]
      unfold rootPath
      split <;> simp
    obtain ⟨g1, g2⟩ := guarded_eq v codec scanReallocated _ stack hnd hle (Nat.le_add_left _ _) f1 f2 h1 h2 buf [] ⟨[], stack⟩
    rw [← hst, ← g1]
    cases hp : guarded v codec scanReallocated f1 stack buf [] stack ⟨[], stack⟩ with
    | none => exact absurd hp g2
    | some w =>
      obtain ⟨⟨its, err⟩, seen⟩ := w
      cases err with
      | some x => exact ⟨rfl, by simp⟩
      | none =>
        dsimp only
        obtain ⟨o1, o2⟩ := orphans_eq v (guarded v codec scanReallocated f1 []) (v.processBuf codec scanReallocated f2)
          (fun buf s seen => guarded_eq v codec scanReallocated _ [] List.nodup_nil (by simp) (Nat.le_add_left _ _) f1 f2 h1 h2 buf s seen)
          (order ((seen.reallocated.filter (· ∉ seen.visited)).eraseDups)) seen
        rw [← o1]
        refine ⟨rfl, ?_⟩
        cases hq : v.orphans (guarded v codec scanReallocated f1 []) (order ((seen.reallocated.filter (· ∉ seen.visited)).eraseDups)) seen with
        | none => exact absurd hq o2
        | some w => simp

/-- C63: walking terminates, for every volume: some depth of the recursion is enough (one more than the number of
the last cluster), and then more makes no difference. -/
theorem C63_terminates (v : Volume) (codec : Codec) (scanReallocated : Bool) (order : List Nat → List Nat) :
    ∃ g, ∀ depth, v.table.lastValidCluster.toNat + 2 ≤ depth → v.walk codec scanReallocated order depth = some g := by
  have h := walk_guarded v codec scanReallocated order _ (v.table.lastValidCluster.toNat + 2) (Nat.le_refl _) (Nat.le_refl _)
  cases hg : v.walk codec scanReallocated order (v.table.lastValidCluster.toNat + 2) with
  | none => rw [hg] at h; exact absurd h.1 h.2
  | some g =>
    refine ⟨g, fun depth hd => ?_⟩
    have h' := walk_guarded v codec scanReallocated order (v.table.lastValidCluster.toNat + 2) depth (Nat.le_refl _) hd
    rw [← h'.1, h.1, hg]

/-- C63: no directory is entered while it is on the path: the walk has the same result as the walk with a guard
that gives no result in such a case.  Partial: the path below an orphan directory starts with the directories in it,
the orphan directory itself is not on it; see `C63_orphan_entered_again`. -/
theorem C63_no_loop_partial (v : Volume) (codec : Codec) (scanReallocated : Bool) (order : List Nat → List Nat) (depth : Nat)
    (h : v.table.lastValidCluster.toNat + 2 ≤ depth) :
    ∃ g, v.walk codec scanReallocated order depth = some g ∧
      v.walkWith (guarded v codec scanReallocated depth (rootPath v)) (guarded v codec scanReallocated depth []) order = some g := by
  obtain ⟨h1, h2⟩ := walk_guarded v codec scanReallocated order depth depth h h
  cases hg : v.walk codec scanReallocated order depth with
  | none => rw [hg] at h1; exact absurd h1 h2
  | some g => exact ⟨g, rfl, by rw [h1, hg]⟩

/-- A slot for an example. -/
def slotOf (name : String) (attributes cluster size : Nat) : Bytes :=
  name.toList.map (UInt8.ofNat ·.toNat) ++ natLE 1 attributes ++ zeros 14 ++ natLE 2 cluster ++ natLE 4 size

/-- Slots and zeros up to 512 bytes. -/
def directoryOf (slots : List Bytes) : Bytes := slots.flatten ++ zeros (512 - slots.flatten.length)

/-- A FAT12 volume with a root directory and the clusters 2 and 3. -/
def volumeOf (root cluster2 cluster3 : List Bytes) : Bytes :=
  bootSector 512 1 1 1 16 8 1 ++ natLE 512 (pack 12 [0xFF8, 0xFFF, 0xFFF, 0xFFF, 0, 0, 0]) ++ directoryOf root ++
  directoryOf cluster2 ++ directoryOf cluster3 ++ zeros 1536

/-- The paths and the first clusters that a walk gives, and how it ends. -/
def walkOf (volume : Bytes) : Except Exc (Option (List (Str × Nat) × Option Exc)) :=
  match openVolume volume 0 none with
  | .error e => .error e
  | .ok v => .ok ((v.walk ascii false id (v.table.lastValidCluster.toNat + 2)).map fun g =>
      (g.items.map fun | .file e => (e.shortName, e.firstCluster) | .orphan name => (name.getD [], 0), g.err))

/-- Two directories that contain one another, and one of them contains itself. -/
def loopVolume : Bytes :=
  volumeOf [slotOf "A          " 0x10 2 0]
    [slotOf ".          " 0x10 2 0, slotOf "LOOP       " 0x10 2 0, slotOf "B          " 0x10 3 0]
    [slotOf "BACK       " 0x10 2 0, slotOf "FILE       " 0x20 0 5]

example : walkOf loopVolume = .ok (some ([(Str.ofString "/A", 2), (Str.ofString "/A/.", 2), (Str.ofString "/A/B", 3), (Str.ofString "/A/B/FILE", 0)], none)) := by
  decide +kernel

/-- A deleted directory whose cluster is in use, with an entry for itself. -/
def orphanVolume : Bytes :=
  volumeOf [0xE5 :: (slotOf "XLD        " 0x10 2 0).drop 1]
    [slotOf ".          " 0x10 2 0, slotOf "..         " 0x10 0 0, slotOf "SUB        " 0x10 2 0] []

/-- C63: an orphan directory can be entered once more while it is walked: here the orphan directory in cluster 2
has a subdirectory in cluster 2, and the entries of that are reported too. -/
theorem C63_orphan_entered_again : ∃ volume items, walkOf volume = .ok (some (items, none)) ∧
    (Str.ofString "<Orphan directory 2>/SUB", 2) ∈ items ∧ (Str.ofString "<Orphan directory 2>/SUB/.", 2) ∈ items := by
  refine ⟨orphanVolume, [(Str.ofString "/_LD", 2), (Str.ofString "<Orphan directory 2>/.", 2), (Str.ofString "<Orphan directory 2>/..", 0),
    (Str.ofString "<Orphan directory 2>/SUB", 2), (Str.ofString "<Orphan directory 2>/SUB/.", 2), (Str.ofString "<Orphan directory 2>/SUB/..", 0)],
    by decide +kernel, by decide +kernel, by decide +kernel⟩

/-! ### C64 -/

/-- C64 does not hold: one slot of a long name with an empty text and the walk ends with a TypeError, nothing
after it is reported. -/
theorem C64_aborted : ∃ volume items, walkOf volume = .ok (some (items, some .TypeError)) ∧
    items = [(Str.ofString "/A", 0)] ∧
    walkOf (volume.set 1057 0x42) = .ok (some ([(Str.ofString "/A", 0), (Str.ofString "/B", 0), (Str.ofString "/C", 0)], none)) := by
  refine ⟨volumeOf [slotOf "A          " 0x20 0 0, writeLong 7 0x41 (List.replicate 13 0), slotOf "C          " 0x20 0 0] [] [], _, by decide +kernel, rfl, by decide +kernel⟩

theorem cutNull_ne {a b : UInt8} {l : Bytes} (h : ¬ (a = 0 ∧ b = 0)) : cutNull (a :: b :: l) ≠ [] := by
  unfold cutNull
  rw [if_neg h]
  simp

theorem utf16Decode_ne {b : Bytes} (h : b ≠ []) : utf16Decode b ≠ [] := by
  unfold utf16Decode
  split
  · exact absurd rfl h
  · simp
  · split
    · split
      · simp
      · simp
      · split <;> simp
    · split <;> simp

/-- A name whose last slot (the first piece of the text) has a first unit that is not null. -/
theorem buildLongName_some {pre : List Bytes} {slot : Bytes} (hs : slot.length = 32) (h : slice slot 1 3 ≠ [0, 0]) :
    ∃ name, buildLongName (pre ++ longPieces slot) = some name := by
  unfold buildLongName
  rw [if_neg (by simp [longPieces])]
  dsimp only
  have hb : ∃ a b l, (pre ++ longPieces slot).reverse.flatten = a :: b :: l ∧ ¬ (a = 0 ∧ b = 0) := by
    have h1 : slice slot 1 11 = slice slot 1 3 ++ slice slot 3 11 := (slice_append_adj slot (by omega) (by omega)).symm
    have h2 : slice slot 1 3 = [slot[1], slot[2]] := slice_two_of_lt (by omega)
    refine ⟨slot[1], slot[2], slice slot 3 11 ++ (slice slot 14 26 ++ (slice slot 28 32 ++ pre.reverse.flatten)), ?_, ?_⟩
    · rw [List.reverse_append, List.flatten_append]
      simp [longPieces, h1, h2]
    · rintro ⟨e1, e2⟩
      rw [h2, e1, e2] at h
      exact h rfl
  obtain ⟨a, b, l, e, hab⟩ := hb
  rw [e]
  have := utf16Decode_ne (cutNull_ne (l := l) hab)
  rw [if_neg (fun h0 => this (List.length_eq_zero_iff.mp h0))]
  split <;> exact ⟨_, rfl⟩

/-- The stash is empty or ends with the pieces of a slot that is not an empty one. -/
def Filled (st : Scan) : Prop :=
  st.entities = [] ∨ ∃ pre slot, st.entities = pre ++ longPieces slot ∧ slot.length = 32 ∧ slice slot 1 3 ≠ [0, 0]

theorem flushStash_some {st : Scan} (h : Filled st) : Item.orphan none ∉ flushStash st.entities := by
  unfold flushStash
  rcases h with h | ⟨pre, slot, h, hs, hne⟩
  · rw [h]; simp
  · obtain ⟨name, hn⟩ := buildLongName_some (pre := pre) hs hne
    rw [h, hn]
    split <;> simp

theorem scanSlot_some {codec : Codec} {isFat32 : Bool} {slot : Bytes} {st st' : Scan} {items : List Item} (hs : slot.length = 32)
    (hne : ¬ EmptyPiece slot) (h : Filled st) (hr : scanSlot codec isFat32 false slot st = .ok (items, st')) : Item.orphan none ∉ items ∧ Filled st' := by
  unfold scanSlot at hr
  dsimp only at hr
  generalize hst : (if u8 slot 0 = 0x00 then { st with foundNull := true } else st) = st1 at hr
  have h1 : Filled st1 := by
    rw [← hst]
    split
    · exact h
    · exact h
  have hattr : u8 slot 11 &&& 0x3F &&& 0x3F = u8 slot 11 % 64 := by rw [attr_mask, attr_mask]; omega
  rw [hattr] at hr
  by_cases hl : u8 slot 11 % 64 = 0x0F
  · rw [if_pos hl] at hr
    simp only [Bool.false_eq_true, if_false] at hr
    have hnull : slice slot 1 3 ≠ [0, 0] := fun h => hne ⟨hl, h⟩
    split at hr
    · cases hr; exact ⟨by simp, h1⟩
    · have he := Except.ok.inj hr
      unfold longSlot at he
      dsimp only at he
      split at he
      · cases he
        refine ⟨flushStash_some h1, ?_⟩
        split
        · exact Or.inr ⟨[], slot, rfl, hs, hnull⟩
        · exact Or.inl rfl
      · cases he
        exact ⟨by simp, Or.inr ⟨_, slot, rfl, hs, hnull⟩⟩
  · rw [if_neg hl] at hr
    unfold shortSlot at hr
    dsimp only at hr
    split at hr
    · cases hr
    split at hr
    · cases hr
    rename_i checksum _
    generalize hlong : (if decide (u8 slot 0 ∈ [0x00, 0xE5]) = true ∨ belongs checksum st1.prev = true then buildLongName st1.entities else none) = longName at hr
    have hbefore : Item.orphan none ∉ (if decide (u8 slot 0 ∈ [0x00, 0xE5]) = true ∨ belongs checksum st1.prev = true then [] else flushStash st1.entities) := by
      split
      · simp
      · exact flushStash_some h1
    generalize (if decide (u8 slot 0 ∈ [0x00, 0xE5]) = true ∨ belongs checksum st1.prev = true then [] else flushStash st1.entities) = before at hr hbefore
    have hrej : Item.orphan none ∉ (if longName.isSome = true then [Item.orphan longName] else []) := by
      cases longName <;> simp
    generalize (if longName.isSome = true then [Item.orphan longName] else []) = rejected at hr hrej
    have hboth : Item.orphan none ∉ before ++ rejected := by simp [hbefore, hrej]
    split at hr
    · cases hr; exact ⟨hboth, Or.inl rfl⟩
    split at hr
    · cases hr; exact ⟨hboth, Or.inl rfl⟩
    split at hr
    · cases hr; exact ⟨hboth, Or.inl rfl⟩
    · cases hr; exact ⟨by simp [hbefore], Or.inl rfl⟩

theorem scanSlots_some (codec : Codec) (isFat32 : Bool) (l : List Bytes) (hl : ∀ s ∈ l, s.length = 32 ∧ ¬ EmptyPiece s) (st : Scan) (h : Filled st) :
    Item.orphan none ∉ (scanSlots codec isFat32 false l st).items := by
  induction l generalizing st with
  | nil => exact flushStash_some h
  | cons slot l ih =>
    unfold scanSlots
    cases hr : scanSlot codec isFat32 false slot st with
    | error e => simp
    | ok p =>
      obtain ⟨items, st'⟩ := p
      obtain ⟨h1, h2⟩ := scanSlot_some (hl slot (by simp)).1 (hl slot (by simp)).2 h hr
      have h3 := ih (fun s hs => hl s (by simp [hs])) st' h2
      simp [Gen.append, h1, h3]

/-- A volume whose places can all be reached by a seek, with clusters of whole sectors. -/
structure Calm (v : Volume) : Prop where
  entries : ∀ c e, v.table.getElement c = .error e → e = .FileAllocationTableException
  places : ∀ c d, v.table.getElement c = .ok d → v.offset + (v.dataAreaOffset + (c - 2) * v.clusterSize) < 2 ^ 63
  positive : 0 < v.clusterSize
  small : v.clusterSize < 2 ^ 63
  sectors : v.clusterSize % 512 = 0

theorem isAllocated_calm {v : Volume} (hc : Calm v) (c : Nat) : ∃ r, v.table.isAllocated c = .ok r := by
  unfold Table.isAllocated
  cases h : v.table.getElement c with
  | ok d => exact ⟨_, rfl⟩
  | error e =>
    rw [hc.entries c e h]
    exact ⟨none, rfl⟩

theorem chain_calm {v : Volume} (hc : Calm v) {c : Nat} {e : Exc} (h : v.table.chain c = .error e) : e = .FileAllocationTableException := by
  rcases (C56_error v.table c e).mp h with ⟨_, h⟩ | ⟨_, _, _, last, _, _, h⟩
  · exact h
  · exact hc.entries last e h

theorem chain_entries {t : Table} {c : Nat} {l : List (Option Nat)} (h : t.chain c = .ok l) : ∀ x, some x ∈ l → ∃ d, t.getElement x = .ok d := by
  by_cases h2 : 2 ≤ c
  · have hb : c ≠ badMark t.type := by
      intro hb
      have := (C56_error t c .FileAllocationTableException).mpr (Or.inl ⟨hb, rfl⟩)
      rw [h] at this
      cases this
    obtain ⟨clusters, last, next, hp, hlast, hnext, hr⟩ := (C56_followed t c h2 hb l).mp h
    have hm : ∀ x, some x ∈ l → x ∈ clusters := by
      intro x hx
      rcases hr with ⟨_, _, rfl⟩ | ⟨_, rfl⟩
      · simpa using hx
      · simpa using hx
    intro x hx
    obtain ⟨i, hi, hxi⟩ := List.mem_iff_getElem.mp (hm x hx)
    by_cases hl : i + 1 < clusters.length
    · exact ⟨_, (hp.follows i x clusters[i + 1] (by rw [List.getElem?_eq_getElem hi, hxi]) (List.getElem?_eq_getElem hl)).1⟩
    · have : last = x := by
        rw [List.getLast?_eq_getElem?, List.getElem?_eq_getElem (by omega)] at hlast
        rw [← hxi]
        have hi' : i = clusters.length - 1 := by omega
        subst hi'
        exact (Option.some.inj hlast).symm
      exact ⟨next, by rw [← this]; exact hnext⟩
  · rw [C56_reserved t c (by omega)] at h
    cases h
    simp

theorem readClusters_calm {v : Volume} (hc : Calm v) (fileSize : Option Nat) (l : List (Option Nat)) (hl : ∀ x, some x ∈ l → ∃ d, v.table.getElement x = .ok d)
    (r : Nat) {e : Exc} (h : v.readClusters fileSize l r = .error e) : e = .ValueError := by
  induction l generalizing r with
  | nil => unfold Volume.readClusters at h; cases h
  | cons x l ih =>
    unfold Volume.readClusters at h
    split at h
    · cases h
    · split at h
      · rename_i e' he
        cases h
        cases x with
        | none => unfold Volume.readCluster at he; cases he
        | some c =>
          obtain ⟨d, hd⟩ := hl c (by simp)
          have hplace := hc.places c d hd
          unfold Volume.readCluster at he
          dsimp only at he
          rw [if_neg (by omega)] at he
          split at he
          · cases he; rfl
          · unfold seekRead at he
            have := hc.small
            rw [if_neg (by omega)] at he
            dsimp only at he
            split at he
            · cases he; rfl
            · cases he
      · split at h
        · rename_i e' he
          cases h
          exact ih (fun y hy => hl y (by simp [hy])) _ he
        · cases h

theorem readChain_calm {v : Volume} (hc : Calm v) {c : Nat} {fileSize : Option Nat} {e : Exc} (h : v.readChain c fileSize = .error e) : caught e = true := by
  unfold Volume.readChain at h
  split at h
  · rename_i e' he
    cases h
    rw [chain_calm hc he]; rfl
  · rename_i l hl
    split at h
    · rename_i e' he
      cases h
      rw [readClusters_calm hc _ _ (chain_entries hl) _ he]; rfl
    · split at h <;> cases h

/-- The buffers of directories for which the loop can go on. -/
def GoodBuffer (buf : Bytes) : Prop := 512 ≤ buf.length ∧ buf.length % 512 = 0 ∧ ∀ slot ∈ slots buf, ¬ EmptyPiece slot

theorem slots_append (a b : Bytes) (h : a.length % 32 = 0) : slots (a ++ b) = slots a ++ slots b := by
  obtain ⟨n, hn⟩ : ∃ n, a.length = 32 * n := ⟨a.length / 32, by omega⟩
  unfold slots
  rw [List.length_append, hn, show (32 * n + b.length) / 32 = n + b.length / 32 by omega, Nat.mul_div_cancel_left _ (by omega), List.range_add,
    List.map_append, List.map_map]
  congr 1
  · apply List.map_congr_left
    intro i hi
    have : i < n := by simpa using hi
    exact slice_append_left _ _ _ _ (by omega)
  · apply List.map_congr_left
    intro i _
    simp only [Function.comp_apply]
    rw [slice_append_right _ _ _ _ (by omega), hn]
    congr 1 <;> omega

theorem readChain_length {v : Volume} (hc : Calm v) {c : Nat} {buf : Bytes} (h : v.readChain c none = .ok buf) : buf.length % 512 = 0 := by
  obtain ⟨l, hl, _⟩ := (C57_read v hc.positive hc.small c none buf).mp h
  rw [(C57_length v hc.positive hc.small c l buf hl).1 h, Nat.mul_mod, hc.sectors]
  simp

/-- Subdirectories: no exception, and a buffer to go on with. -/
theorem subdirectory_calm {v : Volume} (hc : Calm v) (hslots : ∀ c buf, v.readChain c none = .ok buf → ∀ slot ∈ slots buf, ¬ EmptyPiece slot)
    (scanReallocated : Bool) (e : FileEntry) (seen : Seen) :
    ∃ r seen', v.subdirectory scanReallocated e seen = (.ok r, seen') ∧ ∀ buf, r = some buf → GoodBuffer buf := by
  unfold Volume.subdirectory
  dsimp only
  obtain ⟨r, hr⟩ := isAllocated_calm hc e.firstCluster
  rw [hr]
  cases r with
  | none => exact ⟨none, _, rfl, by simp⟩
  | some allocated =>
    dsimp only
    split
    · exact ⟨none, _, rfl, by simp⟩
    · cases hb : v.readChain e.firstCluster none with
      | error x =>
        dsimp only
        rw [readChain_calm hc hb]
        exact ⟨none, _, rfl, by simp⟩
      | ok buf =>
        dsimp only
        have hmod := readChain_length hc hb
        split
        · exact ⟨none, _, rfl, by simp⟩
        rename_i h0
        split
        · exact ⟨none, _, rfl, by simp⟩
        have hgood : GoodBuffer buf := ⟨by omega, hmod, hslots _ _ hb⟩
        have hext : ∃ b, v.withExtra (decide (e.isDeleted = some true)) e.firstCluster buf = .ok b ∧ GoodBuffer b := by
          unfold Volume.withExtra
          split
          · exact ⟨buf, rfl, hgood⟩
          · obtain ⟨l, hl, _⟩ := (C57_read v hc.positive hc.small _ none buf).mp hb
            rw [hl]
            dsimp only
            split
            · exact ⟨buf, rfl, hgood⟩
            · obtain ⟨r, hr⟩ := isAllocated_calm hc (e.firstCluster + 1)
              rw [hr]
              have hx : ∃ b, v.extend buf (e.firstCluster + 1) = .ok b ∧ GoodBuffer b := by
                unfold Volume.extend
                cases hx : v.readChain (e.firstCluster + 1) none with
                | error x =>
                  dsimp only
                  rw [readChain_calm hc hx]
                  exact ⟨buf, rfl, hgood⟩
                | ok extra =>
                  have hm' := readChain_length hc hx
                  refine ⟨_, rfl, ?_⟩
                  split
                  · refine ⟨by rw [List.length_append]; omega, by rw [List.length_append]; omega, ?_⟩
                    rw [slots_append _ _ (by omega)]
                    intro slot hs
                    rcases List.mem_append.mp hs with hs | hs
                    · exact hslots _ _ hb slot hs
                    · exact hslots _ _ hx slot hs
                  · exact hgood
              cases r with
              | none => exact ⟨buf, rfl, hgood⟩
              | some a =>
                cases a with
                | true => exact ⟨buf, rfl, hgood⟩
                | false => exact hx
        obtain ⟨b, hb1, hb2⟩ := hext
        rw [hb1]
        exact ⟨some b, _, rfl, by intro x hx; cases hx; exact hb2⟩

theorem processEntries_calm {v : Volume} (hc : Calm v) (hslots : ∀ c buf, v.readChain c none = .ok buf → ∀ slot ∈ slots buf, ¬ EmptyPiece slot)
    (scanReallocated : Bool) (down : Nat → Bytes → Str → List Nat → Seen → Option Walk)
    (hd : ∀ c buf s stack seen w, GoodBuffer buf → down c buf s stack seen = some w → w.1.err = none)
    (parentPath : Str) (items : List Item) (hitems : Item.orphan none ∉ items) (stack : List Nat) (prev : Option Nat) (seen : Seen) (w : Walk)
    (h : v.processEntries scanReallocated down parentPath items stack prev seen = some w) : w.1.err = none := by
  induction items generalizing stack prev seen w with
  | nil => unfold Volume.processEntries at h; cases h; rfl
  | cons item items ih =>
    have ih := ih (fun hm => hitems (by simp [hm]))
    cases item with
    | orphan name =>
      unfold Volume.processEntries at h
      cases name with
      | none => exact absurd (by simp) hitems
      | some name =>
        unfold expandPath at h
        dsimp only at h
        split at h
        · cases h
        · rename_i g seen' hg
          cases h
          have := ih _ _ _ _ hg
          exact this
    | file e =>
      unfold Volume.processEntries at h
      dsimp only at h
      split at h
      · exact ih _ _ _ _ h
      · unfold expandPath at h
        dsimp only at h
        split at h
        · split at h
          · cases h
          · rename_i g seen' hg
            cases h
            have := ih _ _ _ _ hg
            exact this
        · obtain ⟨r, seen', hr, hgood⟩ := subdirectory_calm hc hslots scanReallocated e seen
          rw [hr] at h
          cases r with
          | none =>
            dsimp only at h
            split at h
            · cases h
            · rename_i g seen' hg
              cases h
              have := ih _ _ _ _ hg
              exact this
          | some buf =>
            dsimp only at h
            split at h
            · cases h
            · rename_i hdown
              have := hd _ _ _ _ _ _ (hgood buf rfl) hdown
              cases this
            · split at h
              · cases h
              · rename_i g seen' hg
                cases h
                have := ih _ _ _ _ hg
                exact this

theorem processBuf_calm {v : Volume} (hc : Calm v) (hslots : ∀ c buf, v.readChain c none = .ok buf → ∀ slot ∈ slots buf, ¬ EmptyPiece slot)
    (codec : Codec) (scanReallocated : Bool) (fuel : Nat) (buf : Bytes) (s : Str) (stack : List Nat) (seen : Seen) (w : Walk) (hb : GoodBuffer buf)
    (h : v.processBuf codec scanReallocated fuel buf s stack seen = some w) : w.1.err = none := by
  induction fuel generalizing buf s stack seen w with
  | zero => unfold Volume.processBuf at h; cases h
  | succ n ih =>
    unfold Volume.processBuf Volume.oneDirectory at h
    have hopen : openDirectory buf = .ok () := by
      unfold openDirectory
      have := hb.1
      have := hb.2.1
      rw [if_neg (by omega)]
    rw [hopen] at h
    dsimp only at h
    have hlist : (entries codec (decide (v.table.type = .fat32)) false buf).err = none := by
      have := (C61_files codec (decide (v.table.type = .fat32)) false buf hb.1 hb.2.1).1
      unfold listDirectory at this
      rw [hopen] at this
      exact this
    have hnone : Item.orphan none ∉ (entries codec (decide (v.table.type = .fat32)) false buf).items := by
      have h2 := hb.2.1
      exact scanSlots_some codec _ (slots buf) (fun x hx => ⟨slots_length (by omega) x hx, hb.2.2 x hx⟩) _ (Or.inl rfl)
    split at h
    · cases h
    · cases h
      exact hlist
    · rename_i g seen' hne hg
      cases h
      exact processEntries_calm hc hslots scanReallocated _ (fun c buf s stack seen w hgood hd => ih buf s stack seen w hgood hd) s _ hnone _ _ _ _ hg

theorem orphans_calm {v : Volume} (hc : Calm v) (hslots : ∀ c buf, v.readChain c none = .ok buf → ∀ slot ∈ slots buf, ¬ EmptyPiece slot)
    (codec : Codec) (scanReallocated : Bool) (fuel : Nat) (l : List Nat) (seen : Seen) (w : Walk)
    (h : v.orphans (v.processBuf codec scanReallocated fuel) l seen = some w) : w.1.err = none := by
  induction l generalizing seen w with
  | nil => unfold Volume.orphans at h; cases h; rfl
  | cons c l ih =>
    unfold Volume.orphans at h
    cases hb : v.readChain c none with
    | error e =>
      rw [hb] at h
      dsimp only at h
      rw [readChain_calm hc hb, if_pos rfl] at h
      exact ih _ _ h
    | ok buf =>
      rw [hb] at h
      dsimp only at h
      split at h
      · exact ih _ _ h
      · rename_i hlen
        have hgood : GoodBuffer buf := ⟨by omega, readChain_length hc hb, hslots _ _ hb⟩
        split at h
        · cases h
        · rename_i hp
          have := processBuf_calm hc hslots codec scanReallocated fuel _ _ _ _ _ hgood hp
          cases this
        · split at h
          · cases h
          · rename_i g seen' hg
            cases h
            have := ih _ _ hg
            exact this

theorem getElement_size {t : Table} {c d : Nat} (h : t.getElement c = .ok d) : (t.type = .fat32 → 4 * c + 4 ≤ t.size) ∧ c ≤ t.size := by
  unfold Table.getElement at h
  cases ht : t.type with
  | fat32 =>
    rw [ht] at h
    dsimp only at h
    unfold Table.wide at h
    split at h
    · cases h
    · rename_i h'
      split at h'
      · cases h'
      · omega
  | fat16 =>
    rw [ht] at h
    dsimp only at h
    unfold Table.wide at h
    split at h
    · cases h
    · exact ⟨by simp, by omega⟩
  | fat12 =>
    rw [ht] at h
    dsimp only at h
    split at h
    · cases h
    · exact ⟨by simp, by omega⟩

theorem getElement_calm {t : Table} (hs : t.offset + t.size < 2 ^ 63) {c : Nat} {e : Exc} (h : t.getElement c = .error e) : e = .FileAllocationTableException := by
  have key : ∀ w, w = 2 ∨ w = 4 → t.wide w c = .error e → e = .FileAllocationTableException := by
    intro w hw h
    unfold Table.wide at h
    split at h
    · cases h; rfl
    · rename_i hb
      unfold seekRead at h
      rw [if_neg (by omega)] at h
      dsimp only at h
      split at h
      · cases h; rfl
      · cases h
  unfold Table.getElement at h
  split at h
  · split at h
    · rename_i e' he
      cases h
      exact key 4 (Or.inr rfl) he
    · cases h
  · exact key 2 (Or.inl rfl) h
  · split at h
    · cases h; rfl
    · unfold seekRead at h
      rw [if_neg (by omega)] at h
      dsimp only at h
      split at h
      · cases h; rfl
      · split at h <;> cases h

/-- The places of an opened volume. -/
theorem opened_calm {object : Bytes} {offset : Nat} {size : Option Nat} {v : Volume} (h : openVolume object offset size = .ok v) (ho : offset ≤ 2 ^ 61) : Calm v := by
  obtain ⟨sectors, hv, hs, _, hoff, _, hcs, hda, _, hto, hts, _⟩ := C53_layout object offset size v h _ rfl
  obtain ⟨_, _, ht32, _⟩ := C53_type object offset size v h
  obtain ⟨c1, c2⟩ := opened_cluster h
  generalize slice object offset (offset + 512) = b at *
  have b1 : u16 b 11 ≤ 4096 ∧ u16 b 11 % 512 = 0 ∧ 512 ≤ u16 b 11 := by
    unfold ValidSectorSize at hs
    simp only [List.mem_cons, List.not_mem_nil, or_false] at hs
    omega
  have t22 := u16_lt b 22
  have t36 := u32_lt b 36
  have t14 := u16_lt b 14
  have t17 := u16_lt b 17
  have t16 := u8_lt b 16
  have hsec : tableSectors b < 2 ^ 32 ∧ (u16 b 22 ≠ 0 → tableSectors b < 2 ^ 16) := by
    unfold tableSectors
    split <;> omega
  have hact : activeTable b ≤ 15 := by
    unfold activeTable
    split <;> omega
  have hsize : tableSectors b * u16 b 11 ≤ (2 ^ 32 - 1) * 4096 := Nat.mul_le_mul (by omega) b1.1
  have hsize16 : u16 b 22 ≠ 0 → tableSectors b * u16 b 11 ≤ (2 ^ 16 - 1) * 4096 := fun h => Nat.mul_le_mul (by have := hsec.2 h; omega) b1.1
  have hbefore : sectorsBeforeData b ≤ 2 ^ 41 := by
    unfold sectorsBeforeData
    have m1 : u8 b 16 * u16 b 22 ≤ 255 * 65535 := Nat.mul_le_mul (by omega) (by omega)
    have m2 : u8 b 16 * u32 b 36 ≤ 255 * 4294967295 := Nat.mul_le_mul (by omega) (by omega)
    have m3 : (u16 b 17 * 32 + u16 b 11 - 1) / u16 b 11 ≤ u16 b 17 * 32 + u16 b 11 - 1 := Nat.div_le_self ..
    split <;> omega
  have hdata : sectorsBeforeData b * u16 b 11 ≤ 2 ^ 41 * 4096 := Nat.mul_le_mul hbefore b1.1
  have htab : (u16 b 14 + tableSectors b * activeTable b) * u16 b 11 ≤ (65535 + (2 ^ 32 - 1) * 15) * 4096 := by
    apply Nat.mul_le_mul _ b1.1
    have : tableSectors b * activeTable b ≤ (2 ^ 32 - 1) * 15 := Nat.mul_le_mul (by omega) hact
    omega
  refine ⟨?_, ?_, by omega, by omega, ?_⟩
  · intro c e he
    exact getElement_calm (by rw [hto, hts]; omega) he
  · intro c d hd
    obtain ⟨g1, g2⟩ := getElement_size hd
    rw [hts] at g1 g2
    have hc : c ≤ 2 ^ 42 := by
      by_cases h22 : u16 b 22 = 0
      · have := g1 (ht32.mpr h22)
        omega
      · have := hsize16 h22
        omega
    have : (c - 2) * v.clusterSize ≤ 2 ^ 42 * 2 ^ 20 := Nat.mul_le_mul (by omega) c2
    rw [hoff, hda]
    omega
  · rw [hcs, Nat.mul_mod, b1.2.1]
    simp

/-- C64, what holds: the walk over an opened volume ends without an exception when its root directory can be
read and has a length that is a multiple of 512, and no slot in it or in any chain of clusters has a piece of a
long name that starts with a null.  Partial: `C64_aborted` shows that the last condition cannot be left out; long
names can be damaged in all other ways.  (An offset of the volume beyond 2^61 would let a seek overflow.) -/
theorem C64_ends_partial (object : Bytes) (offset : Nat) (size : Option Nat) (v : Volume) (hv : openVolume object offset size = .ok v) (ho : offset ≤ 2 ^ 61)
    (buf : Bytes) (stack : List Nat) (hroot : v.root = .ok (buf, stack)) (hlen : buf.length % 512 = 0)
    (hslots : ∀ i, 32 * i + 32 ≤ buf.length → ¬ EmptyPiece (slice buf (32 * i) (32 * i + 32)))
    (hchains : ∀ first chain, v.readChain first none = .ok chain → ∀ i, 32 * i + 32 ≤ chain.length → ¬ EmptyPiece (slice chain (32 * i) (32 * i + 32)))
    (codec : Codec) (scanReallocated : Bool) (order : List Nat → List Nat) :
    ∃ items, ∀ depth, v.table.lastValidCluster.toNat + 2 ≤ depth → v.walk codec scanReallocated order depth = some ⟨items, none⟩ := by
  have hc := opened_calm hv ho
  have hin : ∀ (b : Bytes), (∀ i, 32 * i + 32 ≤ b.length → ¬ EmptyPiece (slice b (32 * i) (32 * i + 32))) → ∀ slot ∈ slots b, ¬ EmptyPiece slot := by
    intro b h slot hs
    unfold slots at hs
    obtain ⟨i, hi, rfl⟩ := List.mem_map.mp hs
    have hi : i < b.length / 32 := by simpa using hi
    exact h i (by omega)
  have hch : ∀ c b, v.readChain c none = .ok b → ∀ slot ∈ slots b, ¬ EmptyPiece slot := fun c b h => hin b (hchains c b h)
  have hpos : buf.length ≠ 0 := by
    have hr := hroot
    unfold Volume.root at hr
    simp only [bind, Except.bind, pure, Except.pure, throw, throwThe, MonadExceptOf.throw] at hr
    by_cases ht : v.table.type = .fat32
    · rw [if_pos ht] at hr
      unfold BSBPB.rootClus at hr
      split at hr
      · cases hr
      · rename_i curr hcurr
        split at hcurr
        · cases hcurr
        · rename_i h2
          cases hcurr
          split at hr
          · cases hr
          · rename_i b hb
            cases hr
            obtain ⟨l, hl, _⟩ := (C57_read v hc.positive hc.small _ none _).mp hb
            rw [(C57_length v hc.positive hc.small _ l _ hl).1 hb]
            have hl0 : l ≠ [] := by
              intro h0
              subst h0
              have hbad : u32 v.bsbpb.buf 44 ≠ badMark v.table.type := by
                intro hb'
                have := (C56_error v.table _ .FileAllocationTableException).mpr (Or.inl ⟨hb', rfl⟩)
                rw [hl] at this
                cases this
              obtain ⟨clusters, last, next, hp, hlast, _, hr⟩ := (C56_followed v.table _ (by omega) hbad []).mp hl
              rcases hr with ⟨_, _, hr⟩ | ⟨_, hr⟩
              · have : clusters = [] := by simpa using hr.symm
                subst this
                cases hlast
              · simp at hr
            have := List.length_pos_iff.mpr hl0
            have := Nat.mul_pos this hc.positive
            omega
    · rw [if_neg ht] at hr
      repeat' (split at hr; · cases hr)
      rename_i h0 _ _ _ h1
      cases hr
      intro h2
      apply h0
      omega
  have hgood : GoodBuffer buf := ⟨by omega, hlen, hin buf hslots⟩
  obtain ⟨g, hg⟩ := C63_terminates v codec scanReallocated order
  refine ⟨g.items, fun depth hd => ?_⟩
  rw [hg depth hd]
  have hw := hg _ (Nat.le_refl _)
  unfold Volume.walk Volume.walkWith at hw
  rw [hroot] at hw
  dsimp only at hw
  have : g.err = none := by
    split at hw
    · cases hw
    · rename_i hp
      have := processBuf_calm hc hch codec scanReallocated _ _ _ _ _ _ hgood hp
      cases this
    · split at hw
      · cases hw
      · rename_i ho
        cases hw
        have := orphans_calm hc hch codec scanReallocated _ _ _ _ ho
        exact this
  cases g
  cases this
  rfl

instance (slot : Bytes) : Decidable (EmptyPiece slot) := by unfold EmptyPiece isLongSlot; infer_instance

/-- No slot of the buffer has an empty piece. -/
def clean (b : Bytes) : Bool := (List.range (b.length / 32)).all fun i => decide (¬ EmptyPiece (slice b (32 * i) (32 * i + 32)))

theorem clean_slots {b : Bytes} (h : clean b = true) (i : Nat) (hi : 32 * i + 32 ≤ b.length) : ¬ EmptyPiece (slice b (32 * i) (32 * i + 32)) := by
  unfold clean at h
  rw [List.all_eq_true] at h
  simpa using h i (by simp; omega)

/-- A test of the conditions, for small volumes that are not FAT32. -/
def conditions (volume : Bytes) : Bool :=
  match openVolume volume 0 none with
  | .error _ => false
  | .ok v =>
    (match v.root with | .ok (buf, []) => decide (buf.length % 512 = 0) && clean buf | _ => false) &&
    (List.range (v.table.lastValidCluster.toNat + 1)).all fun c => match v.readChain c none with | .ok b => clean b | .error _ => true

/-- Two damaged long names (of orders that are not possible), and a loop. -/
def damagedVolume : Bytes :=
  volumeOf [writeLong 7 0x55 (List.replicate 13 0x41), slotOf "A          " 0x10 2 0, writeLong 7 3 (List.replicate 13 0x41)]
    [slotOf "LOOP       " 0x10 2 0, slotOf "B          " 0x20 3 0] []

/-- This volume meets the conditions. -/
example : ∃ v buf, openVolume damagedVolume 0 none = .ok v ∧ v.root = .ok (buf, []) ∧ buf.length % 512 = 0 ∧
    (∀ i, 32 * i + 32 ≤ buf.length → ¬ EmptyPiece (slice buf (32 * i) (32 * i + 32))) ∧
    (∀ first chain, v.readChain first none = .ok chain → ∀ i, 32 * i + 32 ≤ chain.length → ¬ EmptyPiece (slice chain (32 * i) (32 * i + 32))) := by
  have h : conditions damagedVolume = true := by decide +kernel
  unfold conditions at h
  split at h
  · cases h
  · rename_i v hv
    rw [Bool.and_eq_true] at h
    obtain ⟨h1, h2⟩ := h
    split at h1
    · rename_i buf hr
      rw [Bool.and_eq_true, decide_eq_true_eq] at h1
      refine ⟨v, buf, hv, hr, h1.1, clean_slots h1.2, ?_⟩
      intro first chain hc
      apply clean_slots
      by_cases hf : first < v.table.lastValidCluster.toNat + 1
      · rw [List.all_eq_true] at h2
        have := h2 first (by simpa using hf)
        rw [hc] at this
        exact this
      · by_cases h3 : first < 2
        · unfold Volume.readChain at hc
          rw [C56_reserved _ _ h3] at hc
          cases hc
          rfl
        · unfold Volume.readChain at hc
          split at hc
          · cases hc
          · rename_i l hl
            have := chain_first (by omega) hl
            omega
    · cases h1

example : walkOf damagedVolume = .ok (some ([(Str.ofString "/A", 2), (Str.ofString "/A/B", 3)], none)) := by decide +kernel

end Verif.Props
