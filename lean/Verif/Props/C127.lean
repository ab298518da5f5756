/-
Property C127: the exceptions of opening a volume with shadow copies and of selecting one of them (dfir_ntfs/ShadowCopy.py:678-947, 1279-1562).
-/
import Verif.Props.C44
import Verif.Props.C115
namespace Verif.Props
open Verif.ShadowCopy Verif.Spec.Shadow

/-- The exceptions that are declared for shadow copies. -/
def shadowRefusals : List Exc :=
  [.InvalidVolume, .ShadowCopyException, .ShadowCopyNotFoundException, .ShadowBlockException, .StartBlockException,
   .ShadowCopiesDisabledException, .ControlBlockException, .ControlBlockItemException]

/-- The chain of blocks that starts at the offset `o` leads to the offset `q`. -/
inductive Leads (vol : Bytes × Nat) (type : Nat) : Nat → Nat → Prop
  | here (o : Nat) : Leads vol type o o
  | next {o n q : Nat} : o ≠ 0 → BlockAt vol type o n → Leads vol type n q → Leads vol type o q

/-- The chain of blocks that starts at the offset `o` leads to an offset that is too large for a file. -/
def LeadsBeyond (vol : Bytes × Nat) (type o : Nat) : Prop := ∃ q, Leads vol type o q ∧ 2 ^ 63 ≤ vol.2 + q

theorem block_refusal {k : Kind} {buf : Bytes} {e : Exc} (h : block k buf = .error e) : e ∈ shadowRefusals := by
  unfold block at h
  split at h
  · cases h; cases k <;> decide
  split at h
  · cases h; decide
  split at h
  · cases h; cases k <;> decide
  split at h
  · cases h; cases k <;> decide
  · cases h

theorem chain_error {α : Type} (vol : Bytes × Nat) (k : Kind) (f : Bytes → Except Exc α) (hf : ∀ b e, f b = .error e → e ∈ shadowRefusals)
    (fuel o : Nat) (e : Exc) (h : chain vol k f fuel o = some (.error e)) :
    e ∈ shadowRefusals ∨ (e = .OverflowError ∧ LeadsBeyond vol k.type o) := by
  induction fuel generalizing o e with
  | zero =>
    unfold chain at h
    split at h <;> cases h
  | succ fuel ih =>
    unfold chain at h
    by_cases h0 : o = 0
    · rw [if_pos h0] at h; cases h
    rw [if_neg h0] at h
    dsimp only at h
    cases hr : seekRead vol.1 (vol.2 + o) 0x4000 with
    | error e' =>
      rw [hr] at h
      cases h
      unfold seekRead at hr
      split at hr
      · cases hr
        exact .inr ⟨rfl, o, .here o, by omega⟩
      · cases hr
    | ok buf =>
      rw [hr] at h
      dsimp only at h
      have hs : vol.2 + o < 2 ^ 63 ∧ buf = slice vol.1 (vol.2 + o) (vol.2 + o + 0x4000) := by
        unfold seekRead at hr
        split at hr
        · cases hr
        · cases hr; exact ⟨by omega, rfl⟩
      obtain ⟨hs, rfl⟩ := hs
      cases hb : block k (slice vol.1 (vol.2 + o) (vol.2 + o + 0x4000)) with
      | error e' => rw [hb] at h; cases h; exact .inl (block_refusal hb)
      | ok u =>
        rw [hb] at h
        dsimp only at h
        by_cases ho : offset2 (slice vol.1 (vol.2 + o) (vol.2 + o + 0x4000)) ≠ o
        · rw [if_pos ho] at h; cases h
        rw [if_neg ho] at h
        cases hfb : f (slice vol.1 (vol.2 + o) (vol.2 + o + 0x4000)) with
        | error e' => rw [hfb] at h; cases h; exact .inl (hf _ _ hfb)
        | ok a =>
          rw [hfb] at h
          dsimp only at h
          have hacc : Accepted vol k f o := ⟨h0, hs, hb, Decidable.not_not.1 ho, a, hfb⟩
          cases hc : chain vol k f fuel (offset3 (slice vol.1 (vol.2 + o) (vol.2 + o + 0x4000))) with
          | none => rw [hc] at h; cases h
          | some r =>
            rw [hc] at h
            cases r with
            | ok l => cases h
            | error e' =>
              cases h
              rcases ih _ _ hc with h | ⟨h, q, hq, hbig⟩
              · exact .inl h
              · exact .inr ⟨h, q, .next h0 (accepted_blockAt hacc) hq, hbig⟩

/-! ### Opening -/

theorem disabled_start {buf : Bytes} {e : Exc} (h : disabled (startBlock buf) = .error e) : e = .ShadowCopiesDisabledException ∨ e = .InvalidVolume := by
  unfold disabled at h
  split at h
  · rename_i e' he
    cases h
    unfold startBlock at he
    dsimp only at he
    repeat' (split at he; · cases he; first | exact .inl rfl | exact .inr rfl)
    cases he
  · cases h

theorem controlBlocks_error {vol : Bytes × Nat} {buf : Bytes} {fuel : Nat} {e : Exc} (h : controlBlocks vol buf fuel = some (.error e)) :
    e ∈ shadowRefusals ∨ (e = .OverflowError ∧ LeadsBeyond vol 2 (u64 buf 7728)) := by
  unfold controlBlocks firstControlBlockOffset at h
  dsimp only at h
  split at h
  · rename_i he
    split at he
    · cases he; cases h; exact .inl (by decide)
    · cases he
  · rename_i first he
    split at he
    · cases he
    · cases he
      exact chain_error vol .control _ (fun b e h => by cases h) fuel _ e h

/-- Where the chain of the control blocks of a volume starts. -/
def controlStart (vol : Bytes × Nat) : Nat := leNat (slice vol.1 (vol.2 + 7728) (vol.2 + 7736))

theorem start_pointer (vol : Bytes) (off : Nat) : u64 (slice vol off (off + 8192)) 7728 = controlStart (vol, off) := by
  unfold u64 controlStart
  rw [slice_slice _ _ _ _ _ (by omega)]

/-- The start block of a volume names the volume itself as the one that has the shadow copies. -/
def StoresItself (vol : Bytes × Nat) : Prop := slice vol.1 (vol.2 + 7744) (vol.2 + 7760) = slice vol.1 (vol.2 + 7760) (vol.2 + 7776)

theorem local_iff (vol : Bytes) (off : Nat) : isStorageLocal (slice vol off (off + 8192)) = true ↔ StoresItself (vol, off) := by
  unfold isStorageLocal StoresItself
  rw [slice_slice _ _ _ _ _ (by omega), slice_slice _ _ _ _ _ (by omega), decide_eq_true_iff]

/-- An offset beyond what a file can have, in an image or in the control blocks on it. -/
def OpensBeyond (img : Image) : Prop :=
  (2 ^ 63 ≤ img.volumeOffset ∨ LeadsBeyond (img.volume, img.volumeOffset) 2 (controlStart (img.volume, img.volumeOffset))) ∨
  (2 ^ 63 ≤ img.store.2 ∨ LeadsBeyond img.store 2 (controlStart img.store))

theorem open_error {img : Image} {fuel : Nat} {e : Exc} (h : openVolume img fuel = some (.error e)) :
    e ∈ shadowRefusals ∨ (e = .OverflowError ∧ OpensBeyond img) ∨ (e = .NotImplementedError ∧ img.storage ≠ none ∧ StoresItself (img.volume, img.volumeOffset)) := by
  have hdis : ∀ {buf e}, disabled (startBlock buf) = .error e → e ∈ shadowRefusals := by
    intro buf e h
    rcases disabled_start h with rfl | rfl <;> decide
  unfold openVolume at h
  cases hr : seekRead img.volume img.volumeOffset 8192 with
  | error e' =>
    rw [hr] at h
    cases h
    unfold seekRead at hr
    split at hr
    · cases hr; exact .inr (.inl ⟨rfl, .inl (.inl (by omega))⟩)
    · cases hr
  | ok buf =>
    rw [hr] at h
    dsimp only at h
    have hbuf : buf = slice img.volume img.volumeOffset (img.volumeOffset + 8192) := by
      unfold seekRead at hr
      split at hr
      · cases hr
      · cases hr; rfl
    subst hbuf
    cases hst : img.storage with
    | none =>
      rw [hst] at h
      dsimp only at h
      split at h
      · rename_i he; cases h; exact .inl (hdis he)
      split at h
      · cases h
      · rename_i hc
        cases h
        rcases controlBlocks_error hc with h | ⟨h, hb⟩
        · exact .inl h
        · rw [start_pointer] at hb
          exact .inr (.inl ⟨h, .inl (.inr hb)⟩)
      · cases h
    | some s =>
      obtain ⟨storage, storageOffset⟩ := s
      have hstore : img.store = (storage, storageOffset) := by unfold Image.store; rw [hst]; rfl
      rw [hst] at h
      dsimp only at h
      cases hr2 : seekRead storage storageOffset 8192 with
      | error e' =>
        rw [hr2] at h
        cases h
        unfold seekRead at hr2
        split at hr2
        · cases hr2; exact .inr (.inl ⟨rfl, .inr (.inl (by rw [hstore]; dsimp only; omega))⟩)
        · cases hr2
      | ok sbuf =>
        rw [hr2] at h
        dsimp only at h
        have hsbuf : sbuf = slice storage storageOffset (storageOffset + 8192) := by
          unfold seekRead at hr2
          split at hr2
          · cases hr2
          · cases hr2; rfl
        subst hsbuf
        split at h
        · rename_i he; cases h; exact .inl (hdis he)
        split at h
        · rename_i he; cases h; exact .inl (hdis he)
        split at h
        · rename_i hl; cases h; exact .inr (.inr ⟨rfl, (fun h => by cases h), (local_iff _ _).1 hl⟩)
        split at h
        · cases h
        · rename_i hc
          cases h
          rcases controlBlocks_error hc with h | ⟨h, hb⟩
          · exact .inl h
          · rw [start_pointer] at hb
            exact .inr (.inl ⟨h, .inl (.inr hb)⟩)
        split at h
        · cases h
        · rename_i hc
          cases h
          rcases controlBlocks_error hc with h | ⟨h, hb⟩
          · exact .inl h
          · rw [start_pointer] at hb
            exact .inr (.inl ⟨h, .inr (.inr (by rw [hstore]; exact hb))⟩)
        · cases h

/-- C127: the exceptions of opening a volume with shadow copies: those that are declared; `NotImplementedError` when a second volume is
given although the first one has its shadow copies itself; and `OverflowError` when an offset, or a pointer in the chain of the control blocks, is beyond 2^63. -/
theorem C127_open (img : Image) (fuel : Nat) (e : Exc) (h : openVolume img fuel = some (.error e)) :
    e ∈ shadowRefusals ∨ (e = .OverflowError ∧ OpensBeyond img) ∨ (e = .NotImplementedError ∧ img.storage ≠ none ∧ StoresItself (img.volume, img.volumeOffset)) := open_error h

/-! ### Selecting -/

theorem items_error (b : Bytes) (offset : Nat) (e : Exc) (h : (itemsLoop b offset).err = some e) : e ∈ shadowRefusals := by
  fun_induction itemsLoop b offset with
  | case1 => cases h
  | case2 => cases h
  | case3 => cases h; decide
  | case4 => rename_i ih; exact ih h
  | case5 => cases h; decide
  | case6 => cases h; decide
  | case7 => rename_i ih; exact ih h
  | case8 => rename_i ih; exact ih h
  | case9 => cases h

theorem allItems_error (bs : List Bytes) (e : Exc) (h : (allItems bs).err = some e) : e ∈ shadowRefusals := by
  induction bs with
  | nil => cases h
  | cons b rest ih =>
    unfold allItems Gen.append at h
    cases hb : (items b).err with
    | some e' => rw [hb] at h; cases h; exact items_error b 0x80 _ hb
    | none => rw [hb] at h; exact ih h

theorem diffArea_error (b : Bytes) (offset : Nat) (e : Exc) (h : diffAreaLoop b offset = .error e) : e ∈ shadowRefusals := by
  fun_induction diffAreaLoop b offset with
  | case1 => cases h; decide
  | case2 => cases h; decide
  | case3 => cases h
  | case4 _ _ _ _ _ _ _ hx ih => cases h; exact ih hx
  | case5 => cases h
  | case6 => cases h

theorem location_error (b : Bytes) (offset : Nat) (e : Exc) (h : locationLoop b offset = .error e) : e ∈ shadowRefusals := by
  fun_induction locationLoop b offset with
  | case1 => cases h
  | case2 => cases h; decide
  | case3 _ _ _ _ _ _ hx ih => cases h; exact ih hx
  | case4 => cases h
  | case5 => cases h

/-- The item of a shadow copy leads to an offset beyond what a file can have: in the chain of its bitmap, of its earlier bitmap, of the description of
its place, of its table, or in the pointer to the information of the application. -/
def SelectsBeyond (vol : Bytes × Nat) (raw : Bytes) : Prop :=
  LeadsBeyond vol 6 (leNat (slice raw 48 56)) ∨ LeadsBeyond vol 6 (leNat (slice raw 72 80)) ∨ LeadsBeyond vol 5 (leNat (slice raw 40 48)) ∨
  2 ^ 63 ≤ vol.2 + leNat (slice raw 32 40) ∨ LeadsBeyond vol 3 (leNat (slice raw 8 16))

theorem readBitmap_error {vol : Bytes × Nat} {size offset fuel : Nat} {e : Exc} (h : readBitmap vol size offset fuel = some (.error e)) :
    e ∈ shadowRefusals ∨ (e = .OverflowError ∧ LeadsBeyond vol 6 offset) := by
  unfold readBitmap at h
  dsimp only at h
  split at h
  · cases h
  · rename_i hc
    cases h
    exact chain_error vol .bitmap _ (fun b e h => by cases h) fuel _ e hc
  · cases h

theorem readStore_error {img : Image} {cbi2 cbi3 : Bytes} {fuel : Nat} {e : Exc} (h : readStore img cbi2 cbi3 fuel = some (.error e)) :
    e ∈ shadowRefusals ∨ (e = .OverflowError ∧ SelectsBeyond img.store cbi3) := by
  unfold readStore at h
  split at h
  · cases h
  · rename_i hb
    cases h
    rcases readBitmap_error hb with h | ⟨h, hl⟩
    · exact .inl h
    · exact .inr ⟨h, .inl hl⟩
  split at h
  · cases h
  · rename_i hb
    cases h
    rcases readBitmap_error hb with h | ⟨h, hl⟩
    · exact .inl h
    · exact .inr ⟨h, .inr (.inl hl)⟩
  split at h
  · cases h
  · rename_i hb
    cases h
    unfold readLocations at hb
    split at hb
    · cases hb
    · rename_i hc
      cases hb
      rcases chain_error img.store .location _ (fun b e h => location_error b 0x80 e h) fuel _ e hc with h | ⟨h, hl⟩
      · exact .inl h
      · exact .inr ⟨h, .inr (.inr (.inl hl))⟩
    · cases hb
  split at h
  · rename_i hb
    cases h
    unfold readApplication at hb
    split at hb
    · split at hb
      · rename_i hr
        cases hb
        unfold seekRead at hr
        split at hr
        · cases hr
          exact .inr ⟨rfl, .inr (.inr (.inr (.inl (by have : applicationOffset cbi3 = leNat (slice cbi3 32 40) := rfl; omega))))⟩
        · cases hr
      · split at hb
        · rename_i ha
          cases hb
          left
          unfold applicationBlock at ha
          repeat' (split at ha; · cases ha; decide)
          cases ha
        · split at hb <;> cases hb
    · cases hb
  split at h
  · cases h
  · rename_i hb
    cases h
    unfold readDiffArea at hb
    split at hb
    · cases hb
    · rename_i hc
      cases hb
      rcases chain_error img.store .diffArea _ (fun b e h => diffArea_error b 0x80 e h) fuel _ e hc with h | ⟨h, hl⟩
      · exact .inl h
      · exact .inr ⟨h, .inr (.inr (.inr (.inr hl)))⟩
    · cases hb
  · cases h

theorem guidOfPosition_error {position : Nat} {bs : List Bytes} {found : Option Bytes} {e : Exc} (h : guidOfPosition position bs found = .error e) :
    e ∈ shadowRefusals := by
  induction bs generalizing found with
  | nil => cases h
  | cons b rest ih =>
    unfold guidOfPosition at h
    cases hg : guidInBlock b position with
    | ok g => rw [hg] at h; exact ih h
    | error e' =>
      rw [hg] at h
      cases h
      unfold guidInBlock at hg
      split at hg
      · cases hg
      · split at hg
        · rename_i he; cases hg; exact items_error b 0x80 _ he
        · cases hg

theorem pickItems_mem {o : Opened} {g : Option Bytes} {cbi2 cbi3 : Bytes} (h : pickItems o g = .ok (cbi2, cbi3)) :
    .location cbi3 ∈ (allItems o.storageBlocks).items := by
  unfold pickItems at h
  split at h
  · cases h
  split at h
  · cases h
  dsimp only at h
  split at h
  · cases h
  generalize hx : matching3 (allItems o.storageBlocks).items g = three at h
  split at h
  · cases h
  · cases h
    have : cbi3 ∈ matching3 (allItems o.storageBlocks).items g := by rw [hx]; exact List.mem_singleton.2 rfl
    unfold matching3 at this
    obtain ⟨i, hi, he⟩ := List.mem_filterMap.1 this
    cases i with
    | store raw => cases he
    | location raw =>
      dsimp only at he
      split at he
      · cases he; exact hi
      · cases he
  · cases h

theorem pickItems_error {o : Opened} {g : Option Bytes} {e : Exc} (h : pickItems o g = .error e) : e ∈ shadowRefusals := by
  unfold pickItems at h
  split at h
  · rename_i he; cases h; exact allItems_error _ _ he
  split at h
  · rename_i he; cases h; exact allItems_error _ _ he
  dsimp only at h
  split at h
  · cases h; decide
  split at h
  · cases h; decide
  · cases h
  · cases h; decide

theorem selectStores_error {img : Image} {o : Opened} {fuel depth : Nat} {key : Key} {e : Exc} (h : selectStores img o fuel depth key = some (.error e)) :
    e ∈ shadowRefusals ∨ (e = .OverflowError ∧ ∃ raw, .location raw ∈ (allItems o.storageBlocks).items ∧ SelectsBeyond img.store raw) := by
  induction depth generalizing key with
  | zero => cases h
  | succ depth ih =>
    unfold selectStores at h
    split at h
    · rename_i hg
      cases h
      cases key with
      | guid g => cases hg
      | position n => exact .inl (guidOfPosition_error hg)
    split at h
    · rename_i hp; cases h; exact .inl (pickItems_error hp)
    rename_i hp
    split at h
    · cases h
    · rename_i hr
      cases h
      rcases readStore_error hr with h | ⟨h, hb⟩
      · exact .inl h
      · exact .inr ⟨h, _, pickItems_mem hp, hb⟩
    split at h
    · cases h
    · cases h
    · rename_i hs
      split at h
      · cases h
      · cases h; exact ih hs

theorem mem_items {b : Bytes} {offset : Nat} {raw : Bytes} (ho : offset % 0x80 = 0) (h : .location raw ∈ (itemsLoop b offset).items) :
    ∃ i, raw = slice b (128 * i) (128 * i + 128) ∧ 128 * i < 0x4000 ∧ leNat (slice raw 0 4) = 3 := by
  fun_induction itemsLoop b offset with
  | case1 => cases h
  | case2 => cases h
  | case3 => cases h
  | case4 => rename_i ih; exact ih (by omega) h
  | case5 => cases h
  | case6 => cases h
  | case7 =>
    rename_i ih
    rcases List.mem_cons.1 h with h | h
    · cases h
    · exact ih (by omega) h
  | case8 offset hlt _ _ h3 h1 raw' _ h2 ih =>
    rcases List.mem_cons.1 h with h | h
    · injection h with h
      rw [h]
      refine ⟨offset / 128, ?_, by omega, ?_⟩
      · have : 128 * (offset / 128) = offset := by omega
        rw [this]
      · rw [slice_slice _ _ _ _ _ (by omega), Nat.add_zero]
        have : u32 b offset = leNat (slice b offset (offset + 4)) := rfl
        rw [← this]
        simp only [List.mem_cons, List.not_mem_nil, or_false] at h3
        omega
    · exact ih (by omega) h
  | case9 => cases h

theorem mem_allItems {bs : List Bytes} {raw : Bytes} (h : .location raw ∈ (allItems bs).items) :
    ∃ b ∈ bs, ∃ i, raw = slice b (128 * i) (128 * i + 128) ∧ 128 * i < 0x4000 ∧ leNat (slice raw 0 4) = 3 := by
  induction bs with
  | nil => cases h
  | cons b rest ih =>
    have hin : .location raw ∈ (items b).items ∨ .location raw ∈ (allItems rest).items := by
      unfold allItems Gen.append at h
      cases hb : (items b).err with
      | some e' => rw [hb] at h; exact .inl h
      | none =>
        rw [hb] at h
        exact List.mem_append.1 h
    rcases hin with hin | hin
    · exact ⟨b, List.mem_cons_self .., mem_items (by decide) hin⟩
    · obtain ⟨b', hb', h'⟩ := ih hin
      exact ⟨b', List.mem_cons_of_mem _ hb', h'⟩

theorem chain_mem (vol : Bytes × Nat) (k : Kind) (fuel o : Nat) (l : List Bytes) (h : chain vol k (fun b => .ok b) fuel o = some (.ok l)) :
    ∀ b ∈ l, ∃ q n, Leads vol k.type o q ∧ BlockAt vol k.type q n ∧ b = slice vol.1 (vol.2 + q) (vol.2 + q + 0x4000) := by
  induction fuel generalizing o l with
  | zero =>
    unfold chain at h
    split at h
    · cases h; intro b hb; cases hb
    · cases h
  | succ fuel ih =>
    unfold chain at h
    by_cases h0 : o = 0
    · rw [if_pos h0] at h; cases h; intro b hb; cases hb
    rw [if_neg h0] at h
    dsimp only at h
    cases hr : seekRead vol.1 (vol.2 + o) 0x4000 with
    | error e' => rw [hr] at h; cases h
    | ok buf =>
      rw [hr] at h
      dsimp only at h
      have hs : vol.2 + o < 2 ^ 63 ∧ buf = slice vol.1 (vol.2 + o) (vol.2 + o + 0x4000) := by
        unfold seekRead at hr
        split at hr
        · cases hr
        · cases hr; exact ⟨by omega, rfl⟩
      obtain ⟨hs, rfl⟩ := hs
      cases hb : block k (slice vol.1 (vol.2 + o) (vol.2 + o + 0x4000)) with
      | error e' => rw [hb] at h; cases h
      | ok u =>
        rw [hb] at h
        dsimp only at h
        by_cases ho : offset2 (slice vol.1 (vol.2 + o) (vol.2 + o + 0x4000)) ≠ o
        · rw [if_pos ho] at h; cases h; intro b hb; cases hb
        rw [if_neg ho] at h
        have hacc : Accepted vol k (fun b => .ok b) o := ⟨h0, hs, hb, Decidable.not_not.1 ho, _, rfl⟩
        cases hc : chain vol k (fun b => .ok b) fuel (offset3 (slice vol.1 (vol.2 + o) (vol.2 + o + 0x4000))) with
        | none => rw [hc] at h; cases h
        | some r =>
          rw [hc] at h
          cases r with
          | error e => cases h
          | ok l' =>
            cases h
            intro b hb
            rcases List.mem_cons.1 hb with rfl | hb
            · exact ⟨o, _, .here o, accepted_blockAt hacc, rfl⟩
            · obtain ⟨q, n, hq, hn, hbq⟩ := ih _ _ hc b hb
              exact ⟨q, n, .next h0 (accepted_blockAt hacc) hq, hn, hbq⟩

theorem controlBlocks_mem {vol : Bytes × Nat} {fuel : Nat} {l : List Bytes}
    (h : controlBlocks vol (slice vol.1 vol.2 (vol.2 + 8192)) fuel = some (.ok l)) :
    ∀ b ∈ l, ∃ q n, Leads vol 2 (controlStart vol) q ∧ BlockAt vol 2 q n ∧ b = slice vol.1 (vol.2 + q) (vol.2 + q + 0x4000) := by
  unfold controlBlocks firstControlBlockOffset at h
  dsimp only at h
  split at h
  · cases h
  · rename_i first he
    split at he
    · cases he
    · cases he
      rw [start_pointer] at h
      exact chain_mem vol .control fuel _ l h

theorem openVolume_blocks {img : Image} {fuel : Nat} {o : Opened} (h : openVolume img fuel = some (.ok o)) :
    (∀ b ∈ o.storageBlocks, ∃ q n, Leads img.store 2 (controlStart img.store) q ∧ BlockAt img.store 2 q n ∧
      b = slice img.store.1 (img.store.2 + q) (img.store.2 + q + 0x4000)) ∧
    (img.storage = none → o.useSecondVolume = true → ¬ StoresItself (img.volume, img.volumeOffset)) := by
  unfold openVolume at h
  cases hr : seekRead img.volume img.volumeOffset 8192 with
  | error e' => rw [hr] at h; cases h
  | ok buf =>
    rw [hr] at h
    dsimp only at h
    have hbuf : buf = slice img.volume img.volumeOffset (img.volumeOffset + 8192) := by
      unfold seekRead at hr
      split at hr
      · cases hr
      · cases hr; rfl
    subst hbuf
    cases hst : img.storage with
    | none =>
      have hstore : img.store = (img.volume, img.volumeOffset) := by unfold Image.store; rw [hst]; rfl
      rw [hst] at h
      dsimp only at h
      split at h
      · cases h
      split at h
      · cases h
      · cases h
      · rename_i cbs hc
        cases h
        rw [hstore]
        refine ⟨controlBlocks_mem hc, fun _ hl hself => ?_⟩
        rw [(local_iff _ _).2 hself] at hl
        cases hl
    | some s =>
      obtain ⟨storage, storageOffset⟩ := s
      have hstore : img.store = (storage, storageOffset) := by unfold Image.store; rw [hst]; rfl
      refine ⟨?_, (fun h => by cases h)⟩
      rw [hst] at h
      dsimp only at h
      cases hr2 : seekRead storage storageOffset 8192 with
      | error e' => rw [hr2] at h; cases h
      | ok sbuf =>
        rw [hr2] at h
        dsimp only at h
        have hsbuf : sbuf = slice storage storageOffset (storageOffset + 8192) := by
          unfold seekRead at hr2
          split at hr2
          · cases hr2
          · cases hr2; rfl
        subst hsbuf
        rw [hstore]
        split at h
        · cases h
        split at h
        · cases h
        split at h
        · cases h
        split at h
        · cases h
        · cases h
        split at h
        · cases h
        · cases h
        · rename_i hc
          cases h
          exact controlBlocks_mem (vol := (storage, storageOffset)) hc

/-- The 128 bytes `raw` are an item of type 3 in one of the control blocks of a volume. -/
def ItemOf (vol : Bytes × Nat) (raw : Bytes) : Prop :=
  ∃ q n i, Leads vol 2 (controlStart vol) q ∧ BlockAt vol 2 q n ∧ 128 * i < 0x4000 ∧
    raw = slice vol.1 (vol.2 + q + 128 * i) (vol.2 + q + 128 * i + 128) ∧ leNat (slice raw 0 4) = 3

/-- C127: the exceptions of selecting a shadow copy: those that are declared; `NotImplementedError` when the shadow copies are on another volume than
the ones that are given, or when a second volume is given in vain; and `OverflowError` when an offset or a pointer in one of the chains is beyond
2^63. -/
theorem C127_select (img : Image) (fuel : Nat) (key : Key) (e : Exc) (h : select img fuel key = some (.error e)) :
    e ∈ shadowRefusals ∨ (e = .NotImplementedError ∧ (img.storage = none ↔ ¬ StoresItself (img.volume, img.volumeOffset))) ∨
    (e = .OverflowError ∧ (OpensBeyond img ∨ ∃ raw, ItemOf img.store raw ∧ SelectsBeyond img.store raw)) := by
  unfold select at h
  split at h
  · cases h
  · rename_i ho
    cases h
    rcases open_error ho with h | ⟨h, hb⟩ | ⟨h, h1, h2⟩
    · exact .inl h
    · exact .inr (.inr ⟨h, .inl hb⟩)
    · exact .inr (.inl ⟨h, fun h => absurd h h1, fun h => absurd h2 h⟩)
  · rename_i o ho
    obtain ⟨hblocks, hloc⟩ := openVolume_blocks ho
    split at h
    · rename_i hu
      cases h
      exact .inr (.inl ⟨rfl, fun _ => hloc hu.2 hu.1, fun _ => hu.2⟩)
    rcases selectStores_error h with h | ⟨h, raw, hm, hb⟩
    · exact .inl h
    · obtain ⟨b, hb', i, hraw, hi, h3⟩ := mem_allItems hm
      obtain ⟨q, n, hq, hn, rfl⟩ := hblocks b hb'
      refine .inr (.inr ⟨h, .inr ⟨raw, ⟨q, n, i, hq, hn, hi, ?_, h3⟩, hb⟩⟩)
      rw [hraw, slice_slice _ _ _ _ _ (by omega)]
      congr 1 <;> omega

/-- C127, what holds of the claim that only declared exceptions are raised: when no pointer that is followed is beyond 2^63, and the volume with the
shadow copies is the one that is given, opening a volume and selecting a shadow copy on it end normally (or not at all, see C44), or with an
exception of shadow copies. -/
theorem C127_declared_partial (img : Image) (fuel : Nat) (key : Key) (e : Exc) (h : select img fuel key = some (.error e)) (hopen : ¬ OpensBeyond img)
    (hsel : ∀ raw, ItemOf img.store raw → ¬ SelectsBeyond img.store raw)
    (hself : img.storage = none ↔ StoresItself (img.volume, img.volumeOffset)) : e ∈ shadowRefusals := by
  rcases C127_select img fuel key e h with h | ⟨-, h⟩ | ⟨-, h | ⟨raw, h2, h3⟩⟩
  · exact h
  · by_cases hs : StoresItself (img.volume, img.volumeOffset)
    · exact absurd hs (h.1 (hself.2 hs))
    · exact absurd (hself.1 (h.2 hs)) hs
  · exact absurd h hopen
  · exact absurd h3 (hsel raw h2)

/-- C127: a volume that says that its shadow copies are on another volume. -/
theorem C127_not_implemented (img : Image) (fuel : Nat) (key : Key) (o : Opened) (h : openVolume img fuel = some (.ok o)) (hn : img.storage = none)
    (hs : ¬ StoresItself (img.volume, img.volumeOffset)) : select img fuel key = some (.error .NotImplementedError) := by
  have hu : o.useSecondVolume = true := by
    unfold openVolume at h
    rw [hn] at h
    dsimp only at h
    cases hr : seekRead img.volume img.volumeOffset 8192 with
    | error e' => rw [hr] at h; cases h
    | ok buf =>
      rw [hr] at h
      dsimp only at h
      have hbuf : buf = slice img.volume img.volumeOffset (img.volumeOffset + 8192) := by
        unfold seekRead at hr
        split at hr
        · cases hr
        · cases hr; rfl
      subst hbuf
      split at h
      · cases h
      split at h
      · cases h
      · cases h
      · cases h
        dsimp only
        cases hl : isStorageLocal (slice img.volume img.volumeOffset (img.volumeOffset + 8192)) with
        | false => rfl
        | true => exact absurd ((local_iff _ _).1 hl) hs
  unfold select
  rw [h]
  dsimp only
  rw [if_pos ⟨hu, hn⟩]

/-! ### Samples -/

/-- C127: a volume whose start block has a pointer beyond 2^63 is refused with `OverflowError`, which is not declared for shadow copies. -/
theorem C127_overflow (s : Spec.ShadowBlocks.Start) (hs : s.Fits) (rest : Bytes) (h : 2 ^ 63 ≤ s.controlOffset) (ha : s.controlOffset % 16384 = 0)
    (size : Option Nat) (fuel : Nat) : openVolume ⟨s.bytes ++ rest, 0, size, none⟩ (fuel + 1) = some (.error .OverflowError) := by
  obtain ⟨h1, -, h2, -⟩ := ShadowBlocks.C115_start s hs
  have hl : s.bytes.length = 8192 := by
    refine Decidable.by_contra fun hn => ?_
    unfold startBlock at h1
    dsimp only at h1
    rw [if_pos hn] at h1
    cases h1
  rw [if_pos ha] at h2
  have hr : seekRead (s.bytes ++ rest) 0 8192 = .ok s.bytes := by
    unfold seekRead
    rw [if_neg (by omega)]
    congr 1
    unfold slice
    rw [List.drop_zero, List.take_append_of_le_length (by omega), List.take_of_length_le (by omega)]
  unfold openVolume
  rw [hr]
  dsimp only
  have hd : disabled (startBlock s.bytes) = .ok () := by rw [h1]; rfl
  rw [hd]
  dsimp only
  unfold controlBlocks
  rw [h2]
  dsimp only
  unfold chain
  rw [if_neg (by omega)]
  dsimp only
  have hr2 : seekRead (s.bytes ++ rest) (0 + s.controlOffset) 0x4000 = .error .OverflowError := by
    unfold seekRead
    rw [if_pos (by omega)]
  rw [hr2]

/-- A volume whose control blocks would start at the offset 2^63. -/
def farStart : Spec.ShadowBlocks.Start := { ShadowBlocks.sampleStart with controlOffset := 2 ^ 63 }

theorem farStart_fits : farStart.Fits := by
  constructor <;> first | exact List.length_replicate | decide

example : openVolume ⟨farStart.bytes, 0, none, none⟩ 1 = some (.error .OverflowError) ∧ Exc.OverflowError ∉ shadowRefusals := by
  refine ⟨?_, by decide⟩
  have := C127_overflow farStart farStart_fits [] (by decide) (by decide) none 0
  rwa [List.append_nil] at this

end Verif.Props
