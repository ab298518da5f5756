/-
C44: opening a volume and selecting a shadow copy finish, unless a chain of blocks is cyclic.
-/
import Verif.Basic.Pigeonhole
import Verif.Props.C41
import Verif.Proof.SampleShadow
namespace Verif.Props
open Verif.ShadowCopy Verif.Spec.Shadow

/-! ### Chains -/

/-- The next offset that is read from a block. -/
def nextOffset (vol : Bytes × Nat) (o : Nat) : Nat := offset3 (slice vol.1 (vol.2 + o) (vol.2 + o + 0x4000))

def walk (vol : Bytes × Nat) (o : Nat) : Nat → Nat
  | 0 => o
  | i + 1 => nextOffset vol (walk vol o i)

theorem walk_succ (vol : Bytes × Nat) (o i : Nat) : walk vol o (i + 1) = walk vol (nextOffset vol o) i := by
  induction i with
  | zero => rfl
  | succ i ih => rw [walk, ih, walk]

/-- A block that the loop accepts and goes on from. -/
structure Accepted {α : Type} (vol : Bytes × Nat) (k : Kind) (f : Bytes → Except Exc α) (o : Nat) : Prop where
  ne : o ≠ 0
  seekable : vol.2 + o < 2 ^ 63
  block : block k (slice vol.1 (vol.2 + o) (vol.2 + o + 0x4000)) = .ok ()
  own : offset2 (slice vol.1 (vol.2 + o) (vol.2 + o + 0x4000)) = o
  content : ∃ a, f (slice vol.1 (vol.2 + o) (vol.2 + o + 0x4000)) = .ok a

theorem chain_none_iff {α : Type} (vol : Bytes × Nat) (k : Kind) (f : Bytes → Except Exc α) (fuel o : Nat) :
    chain vol k f fuel o = none ↔ (∀ i, i < fuel → Accepted vol k f (walk vol o i)) ∧ walk vol o fuel ≠ 0 := by
  induction fuel generalizing o with
  | zero =>
    rw [chain]
    by_cases h : o = 0
    · rw [if_pos h]; simp [walk, h]
    · rw [if_neg h]; simp [walk, h]
  | succ fuel ih =>
    have key : chain vol k f (fuel + 1) o = none ↔ Accepted vol k f o ∧ chain vol k f fuel (nextOffset vol o) = none := by
      rw [chain]
      by_cases h : o = 0
      · rw [if_pos h]
        exact ⟨(fun h => by cases h), fun h' => absurd h h'.1.ne⟩
      rw [if_neg h]
      by_cases hs : vol.2 + o < 2 ^ 63
      · rw [seekRead_ok hs (by decide)]
        dsimp only
        cases hb : block k (slice vol.1 (vol.2 + o) (vol.2 + o + 0x4000)) with
        | error e => exact ⟨(fun h => by cases h), fun h' => by have := h'.1.block; rw [hb] at this; cases this⟩
        | ok u =>
          dsimp only
          by_cases h2 : offset2 (slice vol.1 (vol.2 + o) (vol.2 + o + 0x4000)) = o
          · rw [if_neg (by simpa using h2)]
            cases hf : f (slice vol.1 (vol.2 + o) (vol.2 + o + 0x4000)) with
            | error e =>
              exact ⟨(fun h => by cases h), fun h' => by obtain ⟨a, ha⟩ := h'.1.content; rw [hf] at ha; cases ha⟩
            | ok a =>
              dsimp only
              have acc : Accepted vol k f o := ⟨h, hs, by rw [hb], h2, a, hf⟩
              rw [← show nextOffset vol o = offset3 (slice vol.1 (vol.2 + o) (vol.2 + o + 0x4000)) from rfl]
              cases hc : chain vol k f fuel (nextOffset vol o) with
              | none => exact ⟨fun _ => ⟨acc, rfl⟩, fun _ => rfl⟩
              | some r => cases r <;> exact ⟨(fun h => by cases h), (fun h => by cases h.2)⟩
          · rw [if_pos h2]
            exact ⟨(fun h => by cases h), fun h' => absurd h'.1.own h2⟩
      · have : seekRead vol.1 (vol.2 + o) 0x4000 = .error .OverflowError := by unfold seekRead; rw [if_pos (by omega)]
        rw [this]
        exact ⟨(fun h => by cases h), fun h' => absurd h'.1.seekable hs⟩
    rw [key, ih]
    constructor
    · rintro ⟨h1, h2, h3⟩
      refine ⟨fun i hi => ?_, by rw [walk_succ]; exact h3⟩
      cases i with
      | zero => exact h1
      | succ i => rw [walk_succ]; exact h2 i (by omega)
    · rintro ⟨h1, h3⟩
      refine ⟨h1 0 (by omega), fun i hi => ?_, by rw [← walk_succ]; exact h3⟩
      rw [← walk_succ]; exact h1 (i + 1) (by omega)

/-- More fuel changes nothing. -/
theorem chain_mono {α : Type} (vol : Bytes × Nat) (k : Kind) (f : Bytes → Except Exc α) (fuel fuel' o : Nat) (r : Except Exc (List α))
    (h : chain vol k f fuel o = some r) (hf : fuel ≤ fuel') : chain vol k f fuel' o = some r := by
  induction fuel generalizing fuel' o r with
  | zero =>
    rw [chain.eq_def] at h ⊢
    dsimp only at h ⊢
    split at h
    · rename_i h0; rw [if_pos h0]; exact h
    · cases h
  | succ fuel ih =>
    obtain ⟨fuel', rfl⟩ : ∃ g, fuel' = g + 1 := ⟨fuel' - 1, by omega⟩
    rw [chain] at h ⊢
    split at h
    · rename_i h0; rw [if_pos h0]; exact h
    rename_i h0
    rw [if_neg h0]
    split at h
    · exact h
    rename_i buf _
    split at h
    · exact h
    split at h
    · rename_i h2; rw [if_pos h2]; exact h
    rename_i h2
    rw [if_neg h2]
    split at h
    · exact h
    try dsimp only
    cases hc : chain vol k f fuel (offset3 buf) with
    | none => rw [hc] at h; cases h
    | some r' =>
      rw [hc] at h
      rw [ih fuel' _ r' hc (by omega)]
      exact h

theorem accepted_length {α : Type} {vol : Bytes × Nat} {k : Kind} {f : Bytes → Except Exc α} {o : Nat} (h : Accepted vol k f o) :
    vol.2 + o + 0x4000 ≤ vol.1.length := by
  have := block_length k _ h.block
  rw [slice_length] at this
  omega

theorem accepted_blockAt {α : Type} {vol : Bytes × Nat} {k : Kind} {f : Bytes → Except Exc α} {o : Nat} (h : Accepted vol k f o) :
    BlockAt vol k.type o (nextOffset vol o) := by
  have hl := accepted_length h
  have hb := h.block
  unfold block at hb
  obtain ⟨-, hb⟩ := of_ite_error hb
  obtain ⟨h1, hb⟩ := of_ite_error hb
  obtain ⟨h2, hb⟩ := of_ite_error hb
  have e : ∀ i j, j ≤ 0x4000 → slice (slice vol.1 (vol.2 + o) (vol.2 + o + 0x4000)) i j = slice vol.1 (vol.2 + o + i) (vol.2 + o + j) := by
    intro i j hj
    rw [slice_slice]
    congr 1
    omega
  have ho := h.own
  unfold offset2 u64 at ho
  unfold blockType u32 at h2
  rw [e _ _ (by omega)] at ho h1 h2
  exact ⟨h.seekable, hl, (by simpa using h1 : _ = diffAreaGuid), by simpa using h2, ho, by unfold nextOffset offset3 u64; rw [e _ _ (by omega)]⟩

/-- When the walk is long, it never ends. -/
theorem walk_endless {α : Type} (vol : Bytes × Nat) (k : Kind) (f : Bytes → Except Exc α) (o n : Nat) (hn : vol.1.length < n)
    (h : ∀ i, i < n → Accepted vol k f (walk vol o i)) : ∀ i, Accepted vol k f (walk vol o i) := by
  have hd : ¬ ((List.range n).map (walk vol o)).Nodup := by
    intro hd
    have := nodup_bounded_length vol.1.length _ hd (by
      intro x hx
      obtain ⟨i, hi, rfl⟩ := List.mem_map.1 hx
      have := accepted_length (h i (List.mem_range.1 hi))
      omega)
    simp at this
    omega
  obtain ⟨a, b, hab, hb, e⟩ : ∃ a b, a < b ∧ b < n ∧ walk vol o a = walk vol o b := by
    apply Classical.byContradiction
    intro hc
    apply hd
    rw [List.Nodup, List.pairwise_map]
    refine List.Pairwise.imp_of_mem ?_ List.pairwise_lt_range
    intro a b _ hb hab he
    exact hc ⟨a, b, hab, List.mem_range.1 hb, he⟩
  have shift : ∀ d, walk vol o (a + d) = walk vol o (b + d) := by
    intro d
    induction d with
    | zero => exact e
    | succ d ih => rw [← Nat.add_assoc, ← Nat.add_assoc, walk, walk, ih]
  intro i
  induction i using Nat.strongRecOn with
  | _ i ih =>
    by_cases hi : i < n
    · exact h i hi
    · have := shift (i - b)
      rw [show b + (i - b) = i by omega] at this
      rw [← this]
      exact ih _ (by omega)

/-- A chain that is not endless is read after at most as many blocks as the volume has bytes. -/
theorem chain_terminates {α : Type} (vol : Bytes × Nat) (k : Kind) (f : Bytes → Except Exc α) (o fuel : Nat) (hf : vol.1.length < fuel)
    (h : ¬ Endless vol k.type o) : ∃ r, chain vol k f fuel o = some r := by
  cases hc : chain vol k f fuel o with
  | some r => exact ⟨r, rfl⟩
  | none =>
    obtain ⟨h1, -⟩ := (chain_none_iff vol k f fuel o).1 hc
    have := walk_endless vol k f o fuel hf h1
    exact absurd ⟨walk vol o, rfl, fun i => ⟨(this i).ne, accepted_blockAt (this i)⟩⟩ h

/-! ### Opening -/

theorem kind_type (k : Kind) : k.type ∈ [2, 3, 5, 6] := by cases k <;> decide

theorem controlBlocks_mono {vol : Bytes × Nat} {buf : Bytes} {fuel fuel' : Nat} {r : Except Exc (List Bytes)} (h : controlBlocks vol buf fuel = some r)
    (hf : fuel ≤ fuel') : controlBlocks vol buf fuel' = some r := by
  unfold controlBlocks at h ⊢
  split at h
  · exact h
  · exact chain_mono vol .control _ fuel fuel' _ r h hf

theorem openVolume_mono {img : Image} {fuel fuel' : Nat} {r : Except Exc Opened} (h : openVolume img fuel = some r) (hf : fuel ≤ fuel') :
    openVolume img fuel' = some r := by
  unfold openVolume at h ⊢
  split at h
  · exact h
  rename_i buf _
  try dsimp only
  split at h
  · try dsimp only
    split at h
    · exact h
    try dsimp only
    cases hc : controlBlocks (img.volume, img.volumeOffset) buf fuel with
    | none => rw [hc] at h; cases h
    | some r' => rw [hc] at h; rw [controlBlocks_mono hc hf]; exact h
  · rename_i storage so _
    try dsimp only
    split at h
    · exact h
    rename_i sbuf _
    try dsimp only
    split at h
    · exact h
    try dsimp only
    split at h
    · exact h
    try dsimp only
    split at h
    · rename_i hl; rw [if_pos hl]; exact h
    rename_i hl
    rw [if_neg hl]
    cases hc : controlBlocks (img.volume, img.volumeOffset) buf fuel with
    | none => rw [hc] at h; cases h
    | some r' =>
      rw [hc] at h
      rw [controlBlocks_mono hc hf]
      cases r' with
      | error e => exact h
      | ok cbs =>
        dsimp only at h ⊢
        cases hc2 : controlBlocks (storage, so) sbuf fuel with
        | none => rw [hc2] at h; cases h
        | some r'' => rw [hc2] at h; rw [controlBlocks_mono hc2 hf]; exact h

theorem controlBlocks_terminates {vol : Bytes × Nat} {buf : Bytes} {fuel : Nat} (hf : vol.1.length < fuel) (h : ∀ o, ¬ Endless vol 2 o) :
    ∃ r, controlBlocks vol buf fuel = some r := by
  unfold controlBlocks
  split
  · exact ⟨_, rfl⟩
  · exact chain_terminates vol .control _ _ fuel hf (h _)

/-- Opening an image without endless chains of control blocks finishes. -/
theorem C44_open_partial (img : Image) (fuel : Nat) (hf : img.volume.length < fuel) (hf' : img.store.1.length < fuel)
    (h1 : ∀ o, ¬ Endless (img.volume, img.volumeOffset) 2 o) (h2 : ∀ o, ¬ Endless img.store 2 o) : ∃ r, openVolume img fuel = some r := by
  unfold openVolume
  split
  · exact ⟨_, rfl⟩
  rename_i buf _
  split
  · split
    · exact ⟨_, rfl⟩
    obtain ⟨r, hr⟩ := controlBlocks_terminates (buf := buf) (vol := (img.volume, img.volumeOffset)) hf h1
    rw [hr]
    cases r <;> exact ⟨_, rfl⟩
  · rename_i storage so hs
    have hst : img.store = (storage, so) := by unfold Image.store; rw [hs]; rfl
    rw [hst] at hf' h2
    split
    · exact ⟨_, rfl⟩
    rename_i sbuf _
    split
    · exact ⟨_, rfl⟩
    split
    · exact ⟨_, rfl⟩
    split
    · exact ⟨_, rfl⟩
    obtain ⟨r, hr⟩ := controlBlocks_terminates (buf := buf) (vol := (img.volume, img.volumeOffset)) hf h1
    rw [hr]
    cases r with
    | error e => exact ⟨_, rfl⟩
    | ok cbs =>
      dsimp only
      obtain ⟨r, hr⟩ := controlBlocks_terminates (buf := sbuf) (vol := (storage, so)) hf' h2
      rw [hr]
      cases r <;> exact ⟨_, rfl⟩

/-! ### Selecting -/

theorem readBitmap_terminates (vol : Bytes × Nat) (size o fuel : Nat) (hf : vol.1.length < fuel) (h : ∀ o, ¬ Endless vol 6 o) :
    ∃ r, readBitmap vol size o fuel = some r := by
  unfold readBitmap
  obtain ⟨r, hr⟩ := chain_terminates vol .bitmap (fun b => .ok (slice b 0x80 0x4000)) o fuel hf (h o)
  simp only [hr]
  cases r <;> exact ⟨_, rfl⟩

theorem readLocations_terminates (vol : Bytes × Nat) (o fuel : Nat) (hf : vol.1.length < fuel) (h : ∀ o, ¬ Endless vol 5 o) :
    ∃ r, readLocations vol o fuel = some r := by
  unfold readLocations
  obtain ⟨r, hr⟩ := chain_terminates vol .location locations o fuel hf (h o)
  rw [hr]
  cases r <;> exact ⟨_, rfl⟩

theorem readDiffArea_terminates (vol : Bytes × Nat) (o fuel : Nat) (hf : vol.1.length < fuel) (h : ∀ o, ¬ Endless vol 3 o) :
    ∃ r, readDiffArea vol o fuel = some r := by
  unfold readDiffArea
  obtain ⟨r, hr⟩ := chain_terminates vol .diffArea diffAreaEntries o fuel hf (h o)
  rw [hr]
  cases r <;> exact ⟨_, rfl⟩

theorem readStore_terminates (img : Image) (cbi2 cbi3 : Bytes) (fuel : Nat) (hf : img.store.1.length < fuel) (h : NoEndlessChain img) :
    ∃ r, readStore img cbi2 cbi3 fuel = some r := by
  have h' := h img.store (.inr rfl)
  unfold readStore
  obtain ⟨r, hr⟩ := readBitmap_terminates img.store (volumeSize cbi2) (bitmapOffset cbi3) fuel hf (h' 6 (by decide))
  rw [hr]
  cases r with
  | error e => exact ⟨_, rfl⟩
  | ok bm =>
  dsimp only
  obtain ⟨r, hr⟩ := readBitmap_terminates img.store (volumeSize cbi2) (previousBitmapOffset cbi3) fuel hf (h' 6 (by decide))
  rw [hr]
  cases r with
  | error e => exact ⟨_, rfl⟩
  | ok pbm =>
  dsimp only
  obtain ⟨r, hr⟩ := readLocations_terminates img.store (locationOffset cbi3) fuel hf (h' 5 (by decide))
  rw [hr]
  cases r with
  | error e => exact ⟨_, rfl⟩
  | ok l =>
  dsimp only
  split
  · exact ⟨_, rfl⟩
  obtain ⟨r, hr⟩ := readDiffArea_terminates img.store (diffAreaOffset cbi3) fuel hf (h' 3 (by decide))
  rw [hr]
  cases r <;> exact ⟨_, rfl⟩

/-- The descriptions of stores in the control blocks. -/
def storeItems (o : Opened) : List Bytes := (allItems o.controlBlocks).items.filterMap fun | .store raw => some raw | .location _ => none

theorem gen_append_items {α : Type} (a b : Gen α) (h : (a.append b).err = none) : (a.append b).items = a.items ++ b.items ∧ a.err = none ∧ b.err = none := by
  unfold Gen.append at h ⊢
  split at h
  · rename_i e he
    cases h
  · rename_i he; exact ⟨rfl, he, h⟩

theorem guidOfPosition_mem (n : Nat) (bs : List Bytes) (found : Option Bytes) (g : Bytes) (he : (allItems bs).err = none)
    (h : guidOfPosition n bs found = .ok (some g)) :
    found = some g ∨ ∃ raw, Item.store raw ∈ (allItems bs).items ∧ stackPosition raw = n ∧ storeGuid raw = g := by
  induction bs generalizing found with
  | nil => rw [guidOfPosition] at h; cases h; exact .inl rfl
  | cons b rest ih =>
    rw [guidOfPosition] at h
    split at h
    · cases h
    rename_i g' hg
    rw [allItems] at he
    obtain ⟨e1, e2, e3⟩ := gen_append_items _ _ he
    rw [allItems, e1]
    rcases ih _ e3 h with h | ⟨raw, h1, h2⟩
    · unfold guidInBlock at hg
      split at hg
      · rename_i g'' hs
        cases hg
        cases h
        obtain ⟨it, h1, h2⟩ := List.exists_of_findSome?_eq_some hs
        cases it with
        | store raw =>
          dsimp only at h2
          split at h2
          · rename_i hp; cases h2; exact .inr ⟨raw, List.mem_append_left _ h1, hp, rfl⟩
          · cases h2
        | location raw => cases h2
      · split at hg
        · cases hg
        · cases hg; exact .inl h
    · exact .inr ⟨raw, List.mem_append_right _ h1, h2⟩

/-- The description that is picked for a stack position has this stack position. -/
theorem pick_position (o : Opened) (n : Nat) (g : Option Bytes) (c2 c3 : Bytes) (hg : guidOfKey o (.position n) = .ok g)
    (hp : pickItems o g = .ok (c2, c3)) : stackPosition c2 = n ∧ c2 ∈ storeItems o := by
  unfold pickItems at hp
  split at hp
  · cases hp
  split at hp
  · cases hp
  rename_i _ he
  obtain ⟨-, hp⟩ := of_ite_error hp
  split at hp
  · cases hp
  · rename_i h2 h3
    cases hp
    have hc : c2 ∈ matching2 (allItems o.controlBlocks).items g := by rw [h2]; simp
    unfold matching2 at hc
    obtain ⟨it, hi, hv⟩ := List.mem_filterMap.1 hc
    cases it with
    | location raw => cases hv
    | store raw =>
      dsimp only at hv
      split at hv
      · rename_i hgr
        cases hv
        subst hgr
        have hmem : c2 ∈ storeItems o := List.mem_filterMap.2 ⟨.store c2, hi, rfl⟩
        refine ⟨?_, hmem⟩
        rcases guidOfPosition_mem n o.controlBlocks none _ he hg with h | ⟨raw, h1, h4, h5⟩
        · cases h
        · have : raw ∈ matching2 (allItems o.controlBlocks).items (some (storeGuid c2)) :=
            List.mem_filterMap.2 ⟨.store raw, h1, by dsimp only; rw [h5, if_pos rfl]⟩
          rw [h2] at this
          rw [List.mem_singleton.1 this] at h4
          exact h4
      · cases hv
  · cases hp

theorem selectStores_terminates (img : Image) (o : Opened) (fuel : Nat) (hf : img.store.1.length < fuel) (h : NoEndlessChain img)
    (depth n : Nat) (hd : ((storeItems o).filter fun r => decide (n ≤ stackPosition r)).length < depth) :
    ∃ r, selectStores img o fuel depth (.position n) = some r := by
  induction depth generalizing n with
  | zero => exact absurd hd (by omega)
  | succ depth ih =>
    rw [selectStores]
    cases hg : guidOfKey o (.position n) with
    | error e => exact ⟨_, rfl⟩
    | ok g =>
      dsimp only
      cases hp : pickItems o g with
      | error e => exact ⟨_, rfl⟩
      | ok c =>
        obtain ⟨c2, c3⟩ := c
        dsimp only
        obtain ⟨r, hr⟩ := readStore_terminates img c2 c3 fuel hf h
        rw [hr]
        cases r with
        | error e => exact ⟨_, rfl⟩
        | ok s =>
          dsimp only
          obtain ⟨h1, h2⟩ := pick_position o n g c2 c3 hg hp
          obtain ⟨r, hr⟩ := ih (stackPosition c2 + 1) (by
            rw [h1]
            have hlt : ((storeItems o).filter fun r => decide (n + 1 ≤ stackPosition r)).length <
                ((storeItems o).filter fun r => decide (n ≤ stackPosition r)).length := by
              clear hd ih
              generalize storeItems o = items at h2 ⊢
              induction items with
              | nil => cases h2
              | cons x xs ihx =>
                have mono : (xs.filter fun r => decide (n + 1 ≤ stackPosition r)).length ≤ (xs.filter fun r => decide (n ≤ stackPosition r)).length := by
                  rw [← List.countP_eq_length_filter, ← List.countP_eq_length_filter]
                  exact List.countP_mono_left fun r _ hr => by simp only [decide_eq_true_eq] at hr ⊢; omega
                rcases List.mem_cons.1 h2 with rfl | hx
                · rw [List.filter_cons_of_neg (by simp; omega), List.filter_cons_of_pos (by simp; omega), List.length_cons]
                  omega
                · have := ihx hx
                  by_cases hn1 : n + 1 ≤ stackPosition x
                  · rw [List.filter_cons_of_pos (by simpa using hn1), List.filter_cons_of_pos (by simp; omega), List.length_cons, List.length_cons]
                    omega
                  · rw [List.filter_cons_of_neg (by simpa using hn1)]
                    by_cases hn : n ≤ stackPosition x
                    · rw [List.filter_cons_of_pos (by simpa using hn), List.length_cons]; omega
                    · rw [List.filter_cons_of_neg (by simpa using hn)]; exact this
            omega)
          rw [hr]
          cases r with
          | ok next => exact ⟨_, rfl⟩
          | error e => dsimp only; split <;> exact ⟨_, rfl⟩

/-- Selecting a shadow copy of an image without endless chains finishes. -/
theorem C44_select_partial (img : Image) (h : NoEndlessChain img) (key : Key) : ∃ fuel r, select img fuel key = some r := by
  have hv := h (img.volume, img.volumeOffset) (.inl rfl)
  have hs := h img.store (.inr rfl)
  obtain ⟨r, hr⟩ := C44_open_partial img (img.volume.length + img.store.1.length + 1) (by omega) (by omega) (hv 2 (by decide)) (hs 2 (by decide))
  cases r with
  | error e => exact ⟨img.volume.length + img.store.1.length + 1, .error e, by unfold select; rw [hr]⟩
  | ok o =>
    refine ⟨img.volume.length + img.store.1.length + 1 + ((storeItems o).length + 2), ?_⟩
    unfold select
    rw [openVolume_mono hr (Nat.le_add_right _ _)]
    dsimp only
    split
    · exact ⟨_, rfl⟩
    generalize hF : img.volume.length + img.store.1.length + 1 + ((storeItems o).length + 2) = F
    have hF' : img.store.1.length < F := by omega
    obtain ⟨d, hd⟩ : ∃ d, F = d + 1 := ⟨F - 1, by omega⟩
    have ht : ∀ n, ∃ r, selectStores img o F d (.position n) = some r := by
      intro n
      apply selectStores_terminates img o F hF' h
      have := List.length_filter_le (fun r => decide (n ≤ stackPosition r)) (storeItems o)
      omega
    suffices hsuf : ∃ r, selectStores img o F (d + 1) key = some r by rw [← hd] at hsuf; exact hsuf
    rw [selectStores]
    split
    · exact ⟨_, rfl⟩
    split
    · exact ⟨_, rfl⟩
    rename_i c2 c3 _
    obtain ⟨r, hr⟩ := readStore_terminates img c2 c3 F hF' h
    rw [hr]
    cases r with
    | error e => exact ⟨_, rfl⟩
    | ok s =>
      dsimp only
      obtain ⟨r, hr⟩ := ht (stackPosition c2 + 1)
      rw [hr]
      cases r with
      | ok next => exact ⟨_, rfl⟩
      | error e => dsimp only; split <;> exact ⟨_, rfl⟩

/-! ### The result does not depend on the bound -/

theorem readBitmap_mono {vol : Bytes × Nat} {size o fuel fuel' : Nat} {r : Except Exc Bytes} (h : readBitmap vol size o fuel = some r)
    (hf : fuel ≤ fuel') : readBitmap vol size o fuel' = some r := by
  unfold readBitmap at h ⊢
  dsimp only at h ⊢
  cases hc : chain vol .bitmap (fun b => .ok (slice b 0x80 0x4000)) fuel o with
  | none => rw [hc] at h; cases h
  | some r' => rw [hc] at h; rw [chain_mono vol .bitmap _ fuel fuel' o r' hc hf]; exact h

theorem readLocations_mono {vol : Bytes × Nat} {o fuel fuel' : Nat} {r : Except Exc (List Location)} (h : readLocations vol o fuel = some r)
    (hf : fuel ≤ fuel') : readLocations vol o fuel' = some r := by
  unfold readLocations at h ⊢
  cases hc : chain vol .location locations fuel o with
  | none => rw [hc] at h; cases h
  | some r' => rw [hc] at h; rw [chain_mono vol .location _ fuel fuel' o r' hc hf]; exact h

theorem readDiffArea_mono {vol : Bytes × Nat} {o fuel fuel' : Nat} {r : Except Exc (List Entry)} (h : readDiffArea vol o fuel = some r)
    (hf : fuel ≤ fuel') : readDiffArea vol o fuel' = some r := by
  unfold readDiffArea at h ⊢
  cases hc : chain vol .diffArea diffAreaEntries fuel o with
  | none => rw [hc] at h; cases h
  | some r' => rw [hc] at h; rw [chain_mono vol .diffArea _ fuel fuel' o r' hc hf]; exact h

theorem readStore_mono {img : Image} {c2 c3 : Bytes} {fuel fuel' : Nat} {r : Except Exc Store} (h : readStore img c2 c3 fuel = some r)
    (hf : fuel ≤ fuel') : readStore img c2 c3 fuel' = some r := by
  unfold readStore at h ⊢
  cases h1 : readBitmap img.store (volumeSize c2) (bitmapOffset c3) fuel with
  | none => rw [h1] at h; cases h
  | some r1 =>
    rw [h1] at h
    rw [readBitmap_mono h1 hf]
    cases r1 with
    | error e => exact h
    | ok bm =>
      dsimp only at h ⊢
      cases h2 : readBitmap img.store (volumeSize c2) (previousBitmapOffset c3) fuel with
      | none => rw [h2] at h; cases h
      | some r2 =>
        rw [h2] at h
        rw [readBitmap_mono h2 hf]
        cases r2 with
        | error e => exact h
        | ok pbm =>
          dsimp only at h ⊢
          cases h3 : readLocations img.store (locationOffset c3) fuel with
          | none => rw [h3] at h; cases h
          | some r3 =>
            rw [h3] at h
            rw [readLocations_mono h3 hf]
            cases r3 with
            | error e => exact h
            | ok l =>
              dsimp only at h ⊢
              cases h4 : readApplication img.store (applicationOffset c3) with
              | error e => rw [h4] at h; exact h
              | ok a =>
                rw [h4] at h
                dsimp only at h ⊢
                cases h5 : readDiffArea img.store (diffAreaOffset c3) fuel with
                | none => rw [h5] at h; cases h
                | some r5 => rw [h5] at h; rw [readDiffArea_mono h5 hf]; exact h

theorem selectStores_mono {img : Image} {o : Opened} {fuel fuel' depth depth' : Nat} {key : Key} {r : Except Exc (List Store)}
    (h : selectStores img o fuel depth key = some r) (hf : fuel ≤ fuel') (hd : depth ≤ depth') : selectStores img o fuel' depth' key = some r := by
  induction depth generalizing depth' key r with
  | zero => cases h
  | succ depth ih =>
    obtain ⟨d', rfl⟩ : ∃ d', depth' = d' + 1 := ⟨depth' - 1, by omega⟩
    rw [selectStores] at h ⊢
    cases hg : guidOfKey o key with
    | error e => rw [hg] at h; exact h
    | ok g =>
      rw [hg] at h
      dsimp only at h ⊢
      cases hp : pickItems o g with
      | error e => rw [hp] at h; exact h
      | ok c =>
        obtain ⟨c2, c3⟩ := c
        rw [hp] at h
        dsimp only at h ⊢
        cases hs : readStore img c2 c3 fuel with
        | none => rw [hs] at h; cases h
        | some r1 =>
          rw [hs] at h
          rw [readStore_mono hs hf]
          cases r1 with
          | error e => exact h
          | ok s =>
            dsimp only at h ⊢
            cases hn : selectStores img o fuel depth (.position (stackPosition c2 + 1)) with
            | none => rw [hn] at h; cases h
            | some r2 => rw [hn] at h; rw [ih hn (by omega)]; exact h

/-- The number of steps that are allowed makes no difference to a result. -/
theorem C44_result_unique (img : Image) (key : Key) (fuel fuel' : Nat) (r : Except Exc (List Store)) (h : select img fuel key = some r)
    (hf : fuel ≤ fuel') : select img fuel' key = some r := by
  unfold select at h ⊢
  cases ho : openVolume img fuel with
  | none => rw [ho] at h; cases h
  | some r1 =>
    rw [ho] at h
    rw [openVolume_mono ho hf]
    cases r1 with
    | error e => exact h
    | ok o =>
      dsimp only at h ⊢
      split at h
      · rename_i hc; rw [if_pos hc]; exact h
      · rename_i hc; rw [if_neg hc]; exact selectStores_mono h hf hf

/-! ### Cyclic chains -/

/-- A volume with a start block that leads to an endless chain of control blocks is never opened: the
constructor does not return. -/
theorem C44_endless (volume : Bytes) (offset : Nat) (size : Option Nat) (ho : offset < 2 ^ 63)
    (hs : startBlock (slice volume offset (offset + 8192)) = .ok ())
    (first : Nat) (hf : leNat (slice volume (offset + 7728) (offset + 7736)) = first) (ha : first % 0x4000 = 0)
    (s : Nat → Nat) (h0 : s 0 = first) (h : ∀ i, s i ≠ 0 ∧ BlockAt (volume, offset) 2 (s i) (s (i + 1)))
    (h1 : ∀ i, leNat (slice volume (offset + s i + 24) (offset + s i + 32)) % 0x4000 = 0) (fuel : Nat) :
    openVolume ⟨volume, offset, size, none⟩ fuel = none := by
  have hacc : ∀ o n, o ≠ 0 → BlockAt (volume, offset) 2 o n → leNat (slice volume (offset + o + 24) (offset + o + 32)) % 0x4000 = 0 →
      Accepted (volume, offset) .control (fun b => Except.ok b) o ∧ nextOffset (volume, offset) o = n := by
    intro o n hne hb hoff
    have e : ∀ i j, j ≤ 0x4000 → slice (slice volume (offset + o) (offset + o + 0x4000)) i j = slice volume (offset + o + i) (offset + o + j) := by
      intro i j hj
      rw [slice_slice]
      congr 1
      omega
    obtain ⟨b1, b2, b3, b4, b5, b6⟩ := hb
    dsimp only at b1 b2 b3 b4 b5 b6
    refine ⟨⟨hne, b1, ?_, ?_, _, rfl⟩, ?_⟩
    · unfold block blockType offset1 u32 u64
      dsimp only
      rw [e _ _ (by omega), e _ _ (by omega), e _ _ (by omega), if_neg (by rw [slice_length]; omega), Nat.add_zero,
        if_neg (by rw [b3]; decide), if_neg (by rw [b4]; decide), if_neg (fun h => h.2.2 hoff)]
    · unfold offset2 u64
      dsimp only
      rw [e _ _ (by omega)]
      exact b5
    · unfold nextOffset offset3 u64
      dsimp only
      rw [e _ _ (by omega)]
      exact b6
  have hw : ∀ i, walk (volume, offset) first i = s i := by
    intro i
    induction i with
    | zero => exact h0.symm
    | succ i ih => rw [walk, ih]; exact (hacc _ _ (h i).1 (h i).2 (h1 i)).2
  have hc : chain (volume, offset) .control (fun b => Except.ok b) fuel first = none := by
    rw [chain_none_iff]
    exact ⟨fun i _ => by rw [hw]; exact (hacc _ _ (h i).1 (h i).2 (h1 i)).1, by rw [hw]; exact (h fuel).1⟩
  have hfirst : firstControlBlockOffset (slice volume offset (offset + 8192)) = .ok first := by
    unfold firstControlBlockOffset u64
    dsimp only
    rw [slice_slice _ _ _ _ _ (by omega), show offset + (7728 + 8) = offset + 7736 from rfl, hf, if_neg (by omega)]
  unfold openVolume controlBlocks disabled
  dsimp only
  rw [seekRead_ok ho (by decide)]
  dsimp only
  rw [hs]
  dsimp only
  rw [hfirst]
  dsimp only
  rw [hc]

/-- C44 is false: there is a volume, with a control block that is its own successor, on which the constructor
does not return. -/
theorem C44_cyclic_chain : ∃ img : Image, ∀ fuel, openVolume img fuel = none := by
  have hl : (SampleShadow.header 2 0 0x4000 0x4000).length = 48 := by decide +kernel
  refine ⟨⟨SampleShadow.start ++ (zeros 0x2000 ++ (SampleShadow.header 2 0 0x4000 0x4000 ++ zeros 16336)), 0, none, none⟩, ?_⟩
  have hsl := SampleShadow.start_length
  have hz := SampleShadow.zeros_length
  have e : ∀ i j, j ≤ 48 → slice (SampleShadow.start ++ (zeros 0x2000 ++ (SampleShadow.header 2 0 0x4000 0x4000 ++ zeros 16336))) (0 + 0x4000 + i) (0 + 0x4000 + j) =
      slice (SampleShadow.header 2 0 0x4000 0x4000) i j := by
    intro i j hj
    rw [slice_append_right _ _ _ _ (by rw [hsl]; omega), slice_append_right _ _ _ _ (by rw [hz, hsl]; omega), hsl, hz,
      slice_append_left _ _ _ _ (by rw [hl]; omega), show 0 + 0x4000 + i - 8192 - 8192 = i by omega, show 0 + 0x4000 + j - 8192 - 8192 = j by omega]
  have e0 : slice (SampleShadow.start ++ (zeros 0x2000 ++ (SampleShadow.header 2 0 0x4000 0x4000 ++ zeros 16336))) 0 (0 + 8192) = SampleShadow.start := by
    rw [slice_append_left _ _ _ _ (by rw [hsl]; omega), slice_all (by rw [hsl]; omega)]
  refine fun fuel => C44_endless _ 0 none (by decide) (by rw [e0]; decide +kernel) 0x4000 ?_ (by decide) (fun _ => 0x4000) rfl (fun i => ⟨by decide, ?_⟩) (fun i => ?_) fuel
  · rw [slice_append_left _ _ _ _ (by rw [hsl]; omega)]
    decide +kernel
  · refine ⟨by decide, ?_, ?_, ?_, ?_, ?_⟩
    · simp only [List.length_append, hsl, hz, hl]; omega
    · exact (e 0 16 (by omega)).trans (by decide +kernel)
    · exact (congrArg leNat (e 20 24 (by omega))).trans (by decide +kernel)
    · exact (congrArg leNat (e 32 40 (by omega))).trans (by decide +kernel)
    · exact (congrArg leNat (e 40 48 (by omega))).trans (by decide +kernel)
  · rw [e 24 32 (by omega)]; decide +kernel

/-! ### A case without endless chains -/

theorem unique_index {l : Bytes} {x : UInt8} (h : l.count x ≤ 1) {i j : Nat} (hi : l[i]? = some x) (hj : l[j]? = some x) : i = j := by
  induction l generalizing i j with
  | nil => simp at hi
  | cons y ys ih =>
    have hmem : ∀ k : Nat, ys[k]? = some x → 1 ≤ ys.count x := fun k hk => List.count_pos_iff.2 (List.mem_of_getElem? hk)
    rw [List.count_cons] at h
    cases i with
    | zero =>
      cases j with
      | zero => rfl
      | succ j =>
        simp only [List.getElem?_cons_zero, List.getElem?_cons_succ, Option.some.injEq] at hi hj
        have := hmem _ hj
        rw [if_pos (by simp [hi])] at h
        omega
    | succ i =>
      cases j with
      | zero =>
        simp only [List.getElem?_cons_zero, List.getElem?_cons_succ, Option.some.injEq] at hi hj
        have := hmem _ hi
        rw [if_pos (by simp [hj])] at h
        omega
      | succ j =>
        simp only [List.getElem?_cons_succ] at hi hj
        rw [ih (by omega) hi hj]

theorem sample_heads (i : Nat) (h : SampleShadow.file[i]? = some 0x6B) : i = 7680 ∨ i = 0x4000 ∨ i = 0x8000 := by
  have hsl := SampleShadow.start_length
  have hz := SampleShadow.zeros_length
  have zs : ∀ n k : Nat, (zeros n)[k]? ≠ some 0x6B := by
    intro n k hk
    have := List.mem_of_getElem? hk
    exact absurd (List.eq_of_mem_replicate this) (by decide)
  unfold SampleShadow.file at h
  rw [List.getElem?_append] at h
  split at h
  · exact .inl (unique_index (by decide +kernel) h (show SampleShadow.start[7680]? = some 0x6B by decide +kernel))
  rw [List.getElem?_append] at h
  split at h
  · exact absurd h (zs _ _)
  rw [List.getElem?_append] at h
  split at h
  · rw [List.getElem?_append] at h
    split at h
    · have := unique_index (by decide +kernel) h (show (SampleShadow.control 256)[0]? = some 0x6B by decide +kernel)
      rw [hsl, hz] at *
      omega
    · exact absurd h (zs _ _)
  rw [List.getElem?_append] at h
  split at h
  · rw [List.getElem?_append] at h
    split at h
    · have := unique_index (by decide +kernel) h (show SampleShadow.table[0]? = some 0x6B by decide +kernel)
      rw [SampleShadow.control_block_length, hsl, hz] at *
      omega
    · exact absurd h (zs _ _)
  · have := List.mem_of_getElem? h
    exact absurd (List.eq_of_mem_replicate this) (by decide)

/-- A case for `C44_select_partial`: the volume with a shadow copy has no endless chain. -/
example : NoEndlessChain SampleShadow.image := by
  have key : ∀ type o n, BlockAt (SampleShadow.file, 0) type o n → n = 0 := by
    intro type o n h
    have hfirst : SampleShadow.file[o]? = some 0x6B := by
      have h1 := congrArg (·[0]?) h.guid
      dsimp only at h1
      rw [slice_getElem?, if_pos (by omega)] at h1
      simpa [blockGuid] using h1
    have hn := h.next
    dsimp only at hn
    rcases sample_heads o hfirst with rfl | rfl | rfl
    · unfold SampleShadow.file at hn
      rw [slice_append_left _ _ _ _ (by rw [SampleShadow.start_length]; omega)] at hn
      rw [← hn]
      decide +kernel
    · have : slice SampleShadow.file (0 + 0x4000 + 40) (0 + 0x4000 + 48) = slice (SampleShadow.control 256) 40 48 := by
        unfold SampleShadow.file
        rw [slice_append_right _ _ _ _ (by rw [SampleShadow.start_length]; omega),
          slice_append_right _ _ _ _ (by rw [SampleShadow.zeros_length, SampleShadow.start_length]; omega), SampleShadow.start_length,
          SampleShadow.zeros_length, slice_append_left _ _ _ _ (by rw [SampleShadow.control_block_length]; omega),
          slice_append_left _ _ _ _ (by rw [SampleShadow.control_length]; omega)]
      rw [this] at hn
      rw [← hn]
      decide +kernel
    · have : slice SampleShadow.file (0 + 0x8000 + 40) (0 + 0x8000 + 48) = slice SampleShadow.table 40 48 := by
        unfold SampleShadow.file
        rw [slice_append_right _ _ _ _ (by rw [SampleShadow.start_length]; omega),
          slice_append_right _ _ _ _ (by rw [SampleShadow.zeros_length, SampleShadow.start_length]; omega), SampleShadow.start_length,
          SampleShadow.zeros_length, slice_append_right _ _ _ _ (by rw [SampleShadow.control_block_length]; omega),
          SampleShadow.control_block_length, slice_append_left _ _ _ _ (by rw [SampleShadow.table_block_length]; omega),
          slice_append_left _ _ _ _ (by rw [SampleShadow.table_length]; omega)]
      rw [this] at hn
      rw [← hn]
      decide +kernel
  intro vol hvol type _ o ⟨s, _, h⟩
  have hv : vol = (SampleShadow.file, 0) := by rcases hvol with rfl | rfl <;> rfl
  subst hv
  exact (h 1).1 (key type _ _ (h 0).2)

end Verif.Props
