/-
C109: the file tables of a volume and of all its shadow copies (`--all-mft`).
-/
import Verif.Props.C98
import Verif.Props.C107
import Verif.Spec.AllMft
import Verif.Props.C42_Stop
import Verif.Proof.Device
namespace Verif.Props.AllMft
open Verif.MFT Verif.Scripts Verif.ShadowCopy Verif.Spec.Shadow Verif.Spec.Mount Verif.Spec.MftTable Verif.Spec.AllMft Verif.Props.Mount

/-! ### The table of one volume -/

/-- The table with its header, and without it. -/
def titled (b : Bool) (rows : List Row) : List Row := if b then header :: rows else rows

theorem processMft_titled (file : Bytes) (tag : Option Str) (p : MFT.Parser) (hp : Parser.init file = .ok p) (b : Bool) (rows : List Row) (err : Option Exc)
    (h : processMft file tag true = ⟨header :: rows, err⟩) : processMft file tag b = ⟨titled b rows, err⟩ := by
  cases b with
  | true => exact h
  | false =>
    unfold processMft at h ⊢
    rw [hp] at h ⊢
    rw [andThen_ok] at h ⊢
    simp only [if_true, Bool.false_eq_true, if_false] at h ⊢
    generalize forGen (recordRows p tag) (p.fileRecords) = g at h ⊢
    cases g with
    | mk i e =>
      unfold Gen.cons at h
      injection h with h1 h2
      injection h1 with h1 h3
      show (⟨i, e⟩ : Gen Row) = ⟨rows, err⟩
      exact congr (congrArg Gen.mk h3) h2

/-- What the rows for a volume are; `b` has the bytes that can be read. -/
theorem deviceTable_spec {dev : Device} {ideal : Device} (hle : Le dev ideal) (off : Nat) (tag : Str) (b : Bool) (items : List Row) (err : Option Exc)
    (h : deviceTable dev off tag b = ⟨items, err⟩) :
    (err = none → ∃ rows, items = titled b rows ∧ TableOf ideal off tag rows) ∧
    (items = [] ∨ ∃ rows, items = titled b rows ∧ BeginsTableOf ideal off tag rows) := by
  unfold deviceTable at h
  cases hf : openDevice dev off with
  | error e => rw [hf] at h; cases h; exact ⟨(fun h => by cases h), .inl rfl⟩
  | ok f =>
    obtain ⟨hf', hv⟩ := openDevice_le hle hf
    rw [hf, andThen_ok] at h
    cases hi : initFrom f.readAt f.fileSize with
    | error e => rw [hi] at h; cases h; exact ⟨(fun h => by cases h), .inl rfl⟩
    | ok r =>
      rw [hi, andThen_ok] at h
      cases hm : f.contents with
      | error e => rw [hm] at h; cases h; exact ⟨(fun h => by cases h), .inl rfl⟩
      | ok mft =>
        have hm' : (f.on ideal).contents = .ok mft := DeviceFile.contents_le (by rw [hv]; exact hle) hm
        rw [hm, andThen_ok] at h
        cases hp : Parser.init mft with
        | error e =>
          unfold processMft at h
          rw [hp] at h
          cases h
          exact ⟨(fun h => by cases h), .inl rfl⟩
        | ok p =>
          obtain ⟨records, blocks, more, err', h1, h2, h3, h4, h5, h6⟩ := C98_mft_table mft (some tag) p hp
          rw [processMft_titled mft (some tag) p hp b _ _ h2] at h
          cases h
          have hi : p.fileRecords.items = records := by rw [h1]
          refine ⟨fun he => ?_, .inr ⟨_, rfl, .inr ⟨_, mft, p, blocks, more, hf', hm', hp, rfl, by rw [hi]; exact h3, by rw [hi]; exact h4, ?_⟩⟩⟩
          rotate_left
          · cases err with
            | none => exact .inl (h5 rfl).1
            | some e =>
              obtain ⟨r, hr, -, hb⟩ := h6 e rfl
              exact .inr ⟨r, by rw [hi]; exact hr, hb⟩
          obtain ⟨hmore, hlen⟩ := h5 he
          subst hmore
          exact ⟨blocks.flatten, by rw [List.append_nil], _, mft, p, blocks, hf', hm', hp, rfl, by rw [hi]; exact hlen, by rw [hi]; exact h4⟩

/-- A file object of a byte string has its bytes. -/
theorem file_le (volume : Bytes) : Le (seekRead volume) (fileOf volume) := by
  intro p n x hx _
  obtain ⟨h1, -, -⟩ := of_seekRead hx
  rw [h1]
  rfl

theorem shadowBytes_eq (img : Image) (stores : List Store) (p n : Nat) (d : Bytes) (h1 : d.length ≤ n) (h2 : p + d.length ≤ roundUp (shadowSize img stores))
    (h3 : ∀ i, i < d.length → d[i]? = byteAt img stores (p + i))
    (h4 : d.length = n ∨ p + d.length = roundUp (shadowSize img stores) ∨ byteAt img stores (p + d.length) = none) : shadowBytes img stores p n = d := by
  induction n generalizing p d with
  | zero =>
    rw [List.eq_nil_of_length_eq_zero (by omega : d.length = 0)]
    rfl
  | succ n ih =>
    cases d with
    | nil =>
      rw [List.length_nil, Nat.add_zero] at h4
      unfold shadowBytes
      rcases h4 with h4 | h4 | h4
      · omega
      · rw [if_pos (by omega)]
      · split
        · rfl
        · rw [show byteAt img stores p = none from h4]
    | cons x rest =>
      rw [List.length_cons] at h1 h2 h3 h4
      unfold shadowBytes
      have hx := h3 0 (by omega)
      rw [List.getElem?_cons_zero, Nat.add_zero] at hx
      rw [if_neg (by omega), ← hx]
      dsimp only
      rw [ih (p + 1) rest (by omega) (by omega) (fun i hi => by
        have := h3 (i + 1) (by omega)
        rw [List.getElem?_cons_succ] at this
        rw [this]
        congr 1
        omega) (by
        rw [show p + 1 + rest.length = p + (rest.length + 1) by omega]
        rcases h4 with h4 | h4
        · left; omega
        · exact .inr h4)]

/-- What is read of a shadow copy are its bytes. -/
theorem shadow_le (img : Image) (fuel : Nat) (key : Key) (stores : List Store) (h : select img fuel key = some (.ok stores)) :
    Le (shadowDevice img stores) (shadowOf img stores) := by
  intro p n x hx hne
  show Except.ok (shadowBytes img stores p n) = _
  by_cases h0 : x = []
  · subst h0
    rcases hne with hne | hne
    · exact absurd rfl hne
    · subst hne; rfl
  obtain ⟨a, b, c, d⟩ := C42_stop img fuel key stores h p n x hx h0
  rw [shadowBytes_eq img stores p n x a b c d]

/-! ### The shadow copy of a slot -/

theorem matching_unique {items : List Item} {g : Bytes} {c2 : Bytes} (h : matching2 items (some g) = [c2]) :
    Item.store c2 ∈ items ∧ storeGuid c2 = g ∧ ∀ raw, Item.store raw ∈ items → storeGuid raw = g → raw = c2 := by
  have hc : c2 ∈ matching2 items (some g) := by rw [h]; simp
  obtain ⟨it, hi, hv⟩ := List.mem_filterMap.1 hc
  refine ⟨?_, ?_, fun raw hr hg => ?_⟩
  · cases it with
    | location raw => cases hv
    | store raw =>
      dsimp only at hv
      split at hv
      · cases hv; exact hi
      · cases hv
  · cases it with
    | location raw => cases hv
    | store raw =>
      dsimp only at hv
      split at hv
      · rename_i he; cases hv; injection he
      · cases hv
  · have : raw ∈ matching2 items (some g) := List.mem_filterMap.2 ⟨.store raw, hr, by dsimp only; rw [if_pos (by rw [hg])]⟩
    rw [h] at this
    simpa using this

theorem readStore_size {img : Image} {c2 c3 : Bytes} {fuel : Nat} {s : Store} (h : readStore img c2 c3 fuel = some (.ok s)) :
    s.currentSize = volumeSize c2 := by
  unfold readStore at h
  split at h
  · cases h
  · cases h
  split at h
  · cases h
  · cases h
  split at h
  · cases h
  · cases h
  split at h
  · cases h
  split at h
  · cases h
  · cases h
  · cases h; rfl

/-- The shadow copy selected by a GUID is that of the only slot with this GUID. -/
theorem select_guid {volume : Bytes} {off fuel : Nat} {o : Opened} (ho : ShadowCopy.openVolume (local_ volume off) fuel = some (.ok o)) {g : Bytes}
    {stores : List Store} (h : select (local_ volume off) fuel (.guid g) = some (.ok stores)) :
    ∃ raw, Item.store raw ∈ (allItems o.controlBlocks).items ∧ storeGuid raw = g ∧ shadowSize (local_ volume off) stores = volumeSize raw ∧
      ∀ other, Item.store other ∈ (allItems o.controlBlocks).items → storeGuid other = g → other = raw := by
  unfold select at h
  rw [ho] at h
  dsimp only at h
  split at h
  · cases h
  cases fuel with
  | zero => cases h
  | succ fuel =>
    rw [selectStores, show guidOfKey o (.guid g) = .ok (some g) from rfl] at h
    dsimp only at h
    split at h
    · cases h
    rename_i c2 c3 hp
    unfold pickItems at hp
    split at hp
    · cases hp
    split at hp
    · cases hp
    obtain ⟨-, hp⟩ := of_ite_error hp
    split at hp
    · cases hp
    · rename_i h2 h3
      cases hp
      obtain ⟨m1, m2, m3⟩ := matching_unique h2
      refine ⟨c2, m1, m2, ?_, m3⟩
      split at h
      · cases h
      · cases h
      rename_i s hr
      split at h
      · cases h
      · cases h; exact readStore_size hr
      · split at h
        · cases h; exact readStore_size hr
        · cases h
    · cases hp

theorem guid_eq (raw : Bytes) : storeGuid raw = guidOf raw := rfl
theorem size_eq (raw : Bytes) : volumeSize raw = slotSize raw := rfl

/-- The shadow copy that is selected for a slot. -/
theorem shadow_of {volume : Bytes} {off fuel : Nat} {o : Opened} (ho : ShadowCopy.openVolume (local_ volume off) fuel = some (.ok o))
    (hb : ∀ b ∈ o.controlBlocks, badSlot b = none) {raw : Bytes} (hr : raw ∈ o.controlBlocks.flatMap shadowSlots) {stores : List Store}
    (h : select (local_ volume off) fuel (.guid (guidOf raw)) = some (.ok stores)) :
    ShadowOf volume off fuel (o.controlBlocks.flatMap shadowSlots) raw stores := by
  have hl := opened_length ho rfl
  obtain ⟨raw', r1, r2, r3, r4⟩ := select_guid ho h
  have hraw := (listed_iff _ hl hb raw).2.mpr hr
  have he := r4 raw hraw rfl
  subst he
  exact ⟨fun other hx hg => r4 other ((listed_iff _ hl hb other).2.mpr hx) hg, h, r3⟩

/-! ### The loop -/

theorem shadowTables_spec {volume : Bytes} {off fuel : Nat} {o : Opened} (ho : ShadowCopy.openVolume (local_ volume off) fuel = some (.ok o))
    (hb : ∀ b ∈ o.controlBlocks, badSlot b = none) (slots : List Bytes) (hs : ∀ raw ∈ slots, raw ∈ o.controlBlocks.flatMap shadowSlots)
    (g : Gen Row) (h : shadowTables (local_ volume off) fuel none (slots.map describe) = some g) :
    ∃ (tables : List (List Row)) (more : List Row), g.items = tables.flatten ++ more ∧ tables.length ≤ slots.length ∧
      (∀ (i : Nat) raw rows, slots[i]? = some raw → tables[i]? = some rows →
        ∃ stores, ShadowOf volume off fuel (o.controlBlocks.flatMap shadowSlots) raw stores ∧
          TableOf (shadowOf (local_ volume off) stores) 0 (tagOf raw) rows) ∧
      (g.err = none → more = [] ∧ tables.length = slots.length) ∧
      (g.err ≠ none → ∃ raw, slots[tables.length]? = some raw ∧ (more = [] ∨
        ∃ stores, ShadowOf volume off fuel (o.controlBlocks.flatMap shadowSlots) raw stores ∧
          BeginsTableOf (shadowOf (local_ volume off) stores) 0 (tagOf raw) more)) := by
  induction slots generalizing g with
  | nil =>
    cases h
    exact ⟨[], [], rfl, Nat.le_refl _, (fun i raw rows h => by simp at h), fun _ => ⟨rfl, rfl⟩, fun h => absurd rfl h⟩
  | cons raw rest ih =>
    rw [List.map_cons, shadowTables] at h
    rw [show (describe raw).storeGuid = guidOf raw from rfl] at h
    split at h
    · cases h
    · cases h
      exact ⟨[], [], rfl, Nat.zero_le _, (fun i raw rows _ h => by simp at h), (fun h => by cases h), fun _ => ⟨raw, rfl, .inl rfl⟩⟩
    rename_i stores hsel
    rw [show shadowTag (describe raw) = tagOf raw from rfl] at h
    have hmem := hs raw (by simp)
    have hstores := shadow_of ho hb hmem hsel
    cases hg : deviceTable (shadowDevice (local_ volume off) stores) 0 (tagOf raw) false with
    | mk items err =>
      obtain ⟨s1, s2⟩ := deviceTable_spec (shadow_le _ _ _ _ hsel) _ _ _ _ _ hg
      rw [hg] at h
      cases err with
      | some e =>
        cases h
        refine ⟨[], items, rfl, Nat.zero_le _, (fun i raw rows _ h => by simp at h), (fun h => by cases h), fun _ => ⟨raw, rfl, ?_⟩⟩
        rcases s2 with s2 | ⟨rows, rfl, hrows⟩
        · exact .inl s2
        · exact .inr ⟨stores, hstores, hrows⟩
      | none =>
        obtain ⟨rows, hrows, htab⟩ := s1 rfl
        rw [hrows] at h
        dsimp only at h
        cases hrest : shadowTables (local_ volume off) fuel none (rest.map describe) with
        | none => rw [hrest] at h; cases h
        | some g' =>
          rw [hrest] at h
          cases h
          obtain ⟨tables, more, i1, i2, i3, i4, i5⟩ := ih (fun x hx => hs x (List.mem_cons_of_mem _ hx)) g' hrest
          refine ⟨rows :: tables, more, ?_, Nat.succ_le_succ i2, ?_, ?_, ?_⟩
          · show rows ++ g'.items = _
            rw [i1, List.flatten_cons, List.append_assoc]
          · intro i raw' rows' h1 h2
            cases i with
            | zero =>
              simp only [List.getElem?_cons_zero, Option.some.injEq] at h1 h2
              subst h1; subst h2
              exact ⟨stores, hstores, htab⟩
            | succ i => exact i3 i raw' rows' (by simpa using h1) (by simpa using h2)
          · intro he
            obtain ⟨j1, j2⟩ := i4 he
            exact ⟨j1, by simp [j2]⟩
          · intro he
            obtain ⟨raw', j1, j2⟩ := i5 he
            exact ⟨raw', by simpa using j1, j2⟩

/-! ### The property -/

theorem first_bad (l : List Bytes) (h : ¬ ∀ b ∈ l, badSlot b = none) :
    ∃ before b after raw, l = before ++ b :: after ∧ (∀ x ∈ before, badSlot x = none) ∧ badSlot b = some raw := by
  induction l with
  | nil => exact absurd (by simp) h
  | cons b rest ih =>
    cases hb : badSlot b with
    | some raw => exact ⟨[], b, rest, raw, rfl, by simp, hb⟩
    | none =>
      obtain ⟨before, b', after, raw, h1, h2, h3⟩ := ih (fun hr => h (fun x hx => by
        rcases List.mem_cons.1 hx with rfl | hx
        · exact hb
        · exact hr x hx))
      refine ⟨b :: before, b', after, raw, by rw [h1]; rfl, fun x hx => ?_, h3⟩
      rcases List.mem_cons.1 hx with rfl | hx
      · exact hb
      · exact h2 x hx

theorem disabled_iff {volume : Bytes} {off fuel : Nat} (ho : off < 2 ^ 63) :
    ShadowCopy.openVolume (local_ volume off) fuel = some (.error .ShadowCopiesDisabledException) ↔ Disabled volume off := by
  have hc := C107_disabled volume off fuel ho
  refine Iff.trans ?_ hc
  unfold listShadows
  constructor
  · intro h
    rw [show ShadowCopy.openVolume ⟨volume, off, none, none⟩ fuel = _ from h]
    rfl
  · intro h
    obtain ⟨m1, m2, m3⟩ := messages_differ
    cases hx : ShadowCopy.openVolume ⟨volume, off, none, none⟩ fuel with
    | none => rw [hx] at h; cases h
    | some r =>
      rw [hx] at h
      cases r with
      | error e =>
        dsimp only at h
        by_cases he : e = .ShadowCopiesDisabledException
        · rw [← he]; exact hx
        · rw [if_neg he] at h
          split at h
          · injection h with h; injection h with h h'; injection h with h h''; exact absurd h.symm m3
          · injection h with h; injection h with h h'; cases h
      | ok o =>
        dsimp only at h
        injection h with h
        unfold Gen.cons at h
        injection h with h h'
        injection h with h h''
        exact absurd h m1

/-- C109: a list that was finished without an exception has the header, the rows for the file table of the volume itself and, when there
are shadow copies, those for the file table of each one of them, in the order of their slots: the rows of a shadow copy come from the data
of this shadow copy, and are tagged with its number. -/
theorem C109_finished (volume : Bytes) (off fuel : Nat) (ho : off < 2 ^ 63) (rows : List Row) (h : processAllMft volume off fuel = some ⟨rows, none⟩) :
    ∃ main, TableOf (fileOf volume) off (Str.ofString "main volume") main ∧
      ((Disabled volume off ∧ rows = header :: main) ∨
       ∃ o tables, ShadowCopy.openVolume (local_ volume off) fuel = some (.ok o) ∧ rows = header :: (main ++ tables.flatten) ∧
         (∀ b ∈ o.controlBlocks, badSlot b = none) ∧ tables.length = (o.controlBlocks.flatMap shadowSlots).length ∧
         Tables volume off fuel (o.controlBlocks.flatMap shadowSlots) tables) := by
  unfold processAllMft at h
  cases hg : deviceTable (seekRead volume) off (Str.ofString "main volume") true with
  | mk items err =>
    rw [hg] at h
    cases err with
    | some e => cases h
    | none =>
      obtain ⟨main, rfl, htab⟩ := (deviceTable_spec (file_le volume) _ _ _ _ _ hg).1 rfl
      refine ⟨main, htab, ?_⟩
      dsimp only at h
      cases hx : ShadowCopy.openVolume ⟨volume, off, none, none⟩ fuel with
      | none => rw [hx] at h; cases h
      | some r =>
        rw [hx] at h
        cases r with
        | error e =>
          injection h with h
          injection h with h1 h2
          by_cases he : e = .ShadowCopiesDisabledException
          · subst he
            exact .inl ⟨(disabled_iff ho).1 hx, h1.symm⟩
          · rw [if_neg he] at h2; cases h2
        | ok o =>
          right
          have hl := opened_length hx rfl
          dsimp only at h
          have key : (∀ b ∈ o.controlBlocks, badSlot b = none) ∨ ∃ e, (shadows o.controlBlocks).err = some e := by
            by_cases hb : ∀ b ∈ o.controlBlocks, badSlot b = none
            · exact .inl hb
            obtain ⟨before, b, after, raw, b1, b2, b3⟩ := first_bad _ hb
            right
            rw [b1]
            exact ⟨_, (C107_bad_slot before b after (fun x hx' => hl x (by rw [b1]; simp at hx' ⊢; rcases hx' with hx' | hx' <;> simp [hx'])) b2 raw b3).2⟩
          rcases key with hb | ⟨e, he⟩
          · rw [show shadows o.controlBlocks = ⟨(o.controlBlocks.flatMap shadowSlots).map describe, none⟩ from C107_shadows _ hl hb] at h
            dsimp only at h
            cases ht : shadowTables ⟨volume, off, none, none⟩ fuel none ((o.controlBlocks.flatMap shadowSlots).map describe) with
            | none => rw [ht] at h; cases h
            | some g =>
              rw [ht] at h
              injection h with h
              injection h with h1 h2
              obtain ⟨tables, more, t1, t2, t3, t4, -⟩ := shadowTables_spec hx hb _ (fun x hx => hx) g ht
              obtain ⟨t5, t6⟩ := t4 h2
              subst t5
              refine ⟨o, tables, hx, ?_, hb, t6, t2, t3⟩
              rw [← h1, t1, List.append_nil]
              rfl
          · exfalso
            rw [he] at h
            have key2 : ∀ l g, shadowTables ⟨volume, off, none, none⟩ fuel (some e) l = some g → g.err ≠ none := by
              intro l
              induction l with
              | nil => intro g hg; cases hg; intro h; cases h
              | cons i rest ih =>
                intro g hg
                rw [shadowTables] at hg
                split at hg
                · cases hg
                · cases hg; intro h; cases h
                split at hg
                · cases hg; intro h; cases h
                · cases hr : shadowTables ⟨volume, off, none, none⟩ fuel (some e) rest with
                  | none => rw [hr] at hg; cases hg
                  | some g' => rw [hr] at hg; cases hg; exact ih g' hr
            cases ht : shadowTables ⟨volume, off, none, none⟩ fuel (some e) (shadows o.controlBlocks).items with
            | none => rw [ht] at h; cases h
            | some g =>
              rw [ht] at h
              injection h with h
              injection h with h1 h2
              exact key2 _ g ht h2

/-- A volume whose file table can be read, and gives a row for every record (see C98). -/
def Listed (volume : Device) (off : Nat) : Prop :=
  ∃ f mft p, openDevice volume off = .ok f ∧ f.contents = .ok mft ∧ Parser.init mft = .ok p ∧ p.size ∣ mft.length ∧ UsableTable mft p.size ∧
    ∀ r ∈ p.fileRecords.items, Tabular r

theorem Listed.le {a b : Device} (hle : Le a b) {off : Nat} (h : Listed a off) : Listed b off := by
  obtain ⟨f, mft, p, h1, h2, h3⟩ := h
  obtain ⟨h4, h5⟩ := openDevice_le hle h1
  exact ⟨f.on b, mft, p, h4, DeviceFile.contents_le (by rw [h5]; exact hle) h2, h3⟩

theorem deviceTable_listed {volume : Device} {off : Nat} (h : Listed volume off) (tag : Str) (b : Bool) :
    ∃ items, deviceTable volume off tag b = ⟨items, none⟩ := by
  obtain ⟨f, mft, p, h1, h2, h3, h4, h5, h6⟩ := h
  obtain ⟨blocks, hb, -⟩ := C98_complete_partial mft (some tag) p h3 h5 h6
  unfold deviceTable
  rw [h1, andThen_ok, f.initFrom_of h2 h3 h4, andThen_ok, h2, andThen_ok]
  exact ⟨_, processMft_titled mft (some tag) p h3 b _ _ hb⟩

theorem allItems_bad (l : List Bytes) (hl : ∀ b ∈ l, b.length = 0x4000) (h : ¬ ∀ b ∈ l, badSlot b = none) : ∃ e, (allItems l).err = some e := by
  induction l with
  | nil => exact absurd (by simp) h
  | cons b rest ih =>
    rw [allItems, items_eq b (hl b (by simp))]
    cases hb : badSlot b with
    | some raw => exact ⟨itemExc raw, rfl⟩
    | none =>
      obtain ⟨e, he⟩ := ih (fun x hx => hl x (List.mem_cons_of_mem _ hx)) (fun hr => h (fun x hx => by
        rcases List.mem_cons.1 hx with rfl | hx
        · exact hb
        · exact hr x hx))
      exact ⟨e, he⟩

/-- With a slot that cannot be used, no shadow copy can be selected. -/
theorem select_bad {volume : Bytes} {off fuel : Nat} {o : Opened} (ho : ShadowCopy.openVolume (local_ volume off) fuel = some (.ok o))
    (hb : ¬ ∀ b ∈ o.controlBlocks, badSlot b = none) (g : Bytes) (stores : List Store) :
    select (local_ volume off) fuel (.guid g) ≠ some (.ok stores) := by
  intro h
  obtain ⟨e, he⟩ := allItems_bad _ (opened_length ho rfl) hb
  unfold select at h
  rw [ho] at h
  dsimp only at h
  split at h
  · cases h
  cases fuel with
  | zero => cases h
  | succ fuel =>
    rw [selectStores, show guidOfKey o (.guid g) = .ok (some g) from rfl] at h
    dsimp only at h
    split at h
    · cases h
    rename_i c2 c3 hp
    unfold pickItems at hp
    split at hp
    · cases hp
    rw [he] at hp
    cases hp

/-- What follows the rows for the volume itself in a list that was stopped. -/
theorem stopped_rest {volume : Bytes} {off fuel : Nat} {o : Opened} (hx : ShadowCopy.openVolume (local_ volume off) fuel = some (.ok o)) (g : Gen Row)
    (e : Exc) (hg : g.err = some e)
    (h : shadowTables (local_ volume off) fuel (shadows o.controlBlocks).err (shadows o.controlBlocks).items = some g) :
    StoppedAtShadows volume off fuel g.items := by
  have hl := opened_length hx rfl
  by_cases hb : ∀ b ∈ o.controlBlocks, badSlot b = none
  · rw [show shadows o.controlBlocks = ⟨(o.controlBlocks.flatMap shadowSlots).map describe, none⟩ from C107_shadows _ hl hb] at h
    dsimp only at h
    obtain ⟨tables, more, t1, t2, t3, -, t5⟩ := shadowTables_spec hx hb _ (fun x hx => hx) g h
    obtain ⟨raw, r1, r2⟩ := t5 (by rw [hg]; intro h; cases h)
    exact .inr ⟨o, tables, more, raw, hx, hb, t1, ⟨t2, t3⟩, r1, r2⟩
  · refine .inl ⟨?_, .inr ⟨o, hx, hb⟩⟩
    generalize (shadows o.controlBlocks).items = infos at h
    cases infos with
    | nil => rw [shadowTables] at h; cases h; rfl
    | cons i rest =>
      rw [shadowTables] at h
      cases hs : select (local_ volume off) fuel (.guid i.storeGuid) with
      | none => rw [hs] at h; cases h
      | some r =>
        rw [hs] at h
        cases r with
        | error e => cases h; rfl
        | ok stores => exact absurd hs (select_bad hx hb _ _)

/-- C109: a list that was stopped by an exception at the volume itself has the first of its rows; one that was stopped later has all the rows
for the volume itself, and those for the shadow copies before the one that stopped it; the other rows are from this shadow copy. -/
theorem C109_stopped (volume : Bytes) (off fuel : Nat) (rows : List Row) (e : Exc) (h : processAllMft volume off fuel = some ⟨rows, some e⟩) :
    (¬ Listed (seekRead volume) off ∧
      (rows = [] ∨ ∃ main, rows = header :: main ∧ BeginsTableOf (fileOf volume) off (Str.ofString "main volume") main)) ∨
    ∃ main rest, TableOf (fileOf volume) off (Str.ofString "main volume") main ∧ rows = header :: (main ++ rest) ∧
      StoppedAtShadows volume off fuel rest := by
  unfold processAllMft at h
  cases hg : deviceTable (seekRead volume) off (Str.ofString "main volume") true with
  | mk items err =>
    rw [hg] at h
    cases err with
    | some e' =>
      cases h
      refine .inl ⟨fun hm => ?_, (deviceTable_spec (file_le volume) _ _ _ _ _ hg).2⟩
      obtain ⟨items', hi⟩ := deviceTable_listed hm (Str.ofString "main volume") true
      rw [hi] at hg
      cases hg
    | none =>
      obtain ⟨main, rfl, htab⟩ := (deviceTable_spec (file_le volume) _ _ _ _ _ hg).1 rfl
      dsimp only at h
      cases hx : ShadowCopy.openVolume (local_ volume off) fuel with
      | none => rw [show ShadowCopy.openVolume ⟨volume, off, none, none⟩ fuel = none from hx] at h; cases h
      | some r =>
        rw [show ShadowCopy.openVolume ⟨volume, off, none, none⟩ fuel = some r from hx] at h
        cases r with
        | error e' =>
          injection h with h
          injection h with h1 h2
          split at h2
          · cases h2
          · rename_i hd
            exact .inr ⟨main, [], htab, by rw [← h1, List.append_nil]; rfl, .inl ⟨rfl, .inl ⟨e', hx, hd⟩⟩⟩
        | ok o =>
          dsimp only at h
          cases ht : shadowTables ⟨volume, off, none, none⟩ fuel (shadows o.controlBlocks).err (shadows o.controlBlocks).items with
          | none => rw [ht] at h; cases h
          | some g =>
            rw [ht] at h
            injection h with h
            injection h with h1 h2
            exact .inr ⟨main, g.items, htab, h1.symm, stopped_rest hx g e h2 ht⟩

/-- C109 (with C109_finished): the list is finished when the file table of the volume, and that of each shadow copy, gives a row for every
record. -/
theorem C109_complete (volume : Bytes) (off fuel : Nat) (hm : Listed (seekRead volume) off) (o : Opened)
    (hx : ShadowCopy.openVolume (local_ volume off) fuel = some (.ok o)) (hb : ∀ b ∈ o.controlBlocks, badSlot b = none)
    (hs : ∀ raw ∈ o.controlBlocks.flatMap shadowSlots, ∃ stores, select (local_ volume off) fuel (.guid (guidOf raw)) = some (.ok stores) ∧
      Listed (shadowDevice (local_ volume off) stores) 0) :
    ∃ rows, processAllMft volume off fuel = some ⟨rows, none⟩ := by
  obtain ⟨items, hi⟩ := deviceTable_listed hm (Str.ofString "main volume") true
  have hl := opened_length hx rfl
  unfold processAllMft
  rw [hi]
  dsimp only
  rw [show ShadowCopy.openVolume ⟨volume, off, none, none⟩ fuel = some (.ok o) from hx]
  dsimp only
  rw [show shadows o.controlBlocks = ⟨(o.controlBlocks.flatMap shadowSlots).map describe, none⟩ from C107_shadows _ hl hb]
  dsimp only
  have key : ∀ slots : List Bytes, (∀ raw ∈ slots, raw ∈ o.controlBlocks.flatMap shadowSlots) →
      ∃ rows, shadowTables ⟨volume, off, none, none⟩ fuel none (slots.map describe) = some ⟨rows, none⟩ := by
    intro slots
    induction slots with
    | nil => intro _; exact ⟨[], rfl⟩
    | cons raw rest ih =>
      intro hr
      obtain ⟨stores, h1, h3⟩ := hs raw (hr raw (by simp))
      obtain ⟨items', hi'⟩ := deviceTable_listed h3 (shadowTag (describe raw)) false
      obtain ⟨rows, hrows⟩ := ih (fun x hx => hr x (List.mem_cons_of_mem _ hx))
      refine ⟨items' ++ rows, ?_⟩
      rw [List.map_cons, shadowTables]
      rw [show select ⟨volume, off, none, none⟩ fuel (.guid (describe raw).storeGuid) = some (.ok stores) from h1]
      dsimp only
      rw [show deviceTable (shadowDevice ⟨volume, off, none, none⟩ stores) 0 (shadowTag (describe raw)) false = _ from hi']
      dsimp only
      rw [hrows]
      rfl
  obtain ⟨rows, hrows⟩ := key _ (fun x hx => hx)
  rw [hrows]
  exact ⟨_, rfl⟩

/-- C109: without shadow copies, the list is the one for the volume itself. -/
theorem C109_disabled (volume : Bytes) (off fuel : Nat) (ho : off < 2 ^ 63) (hd : Disabled volume off) :
    ∃ g, processAllMft volume off fuel = some g ∧ g = deviceTable (seekRead volume) off (Str.ofString "main volume") true := by
  refine ⟨_, ?_, rfl⟩
  unfold processAllMft
  cases deviceTable (seekRead volume) off (Str.ofString "main volume") true with
  | mk items err =>
    cases err with
    | some e => rfl
    | none =>
      dsimp only
      rw [show ShadowCopy.openVolume ⟨volume, off, none, none⟩ fuel = _ from (disabled_iff ho).2 hd]
      rfl

/-- C109: the parts of a shadow copy that are read one by one are those of the data that is read at once, when all of it can be read and
its size is a multiple of the size of a block. -/
theorem C109_parts (img : Image) (fuel : Nat) (key : Key) (stores : List Store) (h : select img fuel key = some (.ok stores))
    (ha : 0x4000 ∣ shadowSize img stores) (hr : Readable img stores 0 (shadowSize img stores)) :
    ∃ view, (ShadowCopy.read img stores 0 none).1 = .ok view ∧ view.length = shadowSize img stores ∧ (∀ i, i < view.length → view[i]? = byteAt img stores i) ∧
      ∀ p n : Nat, p < 2 ^ 63 → n < 2 ^ 63 → shadowDevice img stores p n = seekRead view p n := by
  obtain ⟨hne, -⟩ := C41_selected img fuel key stores h
  obtain ⟨view, v1, v2, v3⟩ := C42_exact img fuel key stores h 0 (shadowSize img stores) (by omega) (by rw [Nat.zero_add]; exact hr)
  have hv : (ShadowCopy.read img stores 0 none).1 = .ok view := by
    rw [C42_rest img stores hne 0, Nat.sub_zero, v1]
  refine ⟨view, hv, v2, (fun i hi => by rw [v3 i (by omega), Nat.zero_add]), fun p n hp hn => ?_⟩
  rw [seekRead_ok hp hn]
  show (ShadowCopy.read img stores p (some n)).1 = _
  have mono : ∀ x y, y ≤ shadowSize img stores → Readable img stores x y := by
    intro x y hy
    exact ⟨fun q _ h2 => hr.bytes q (by simp) (Nat.lt_of_lt_of_le h2 hy),
      fun q _ h2 => hr.offsets q (by simp) (Nat.lt_of_lt_of_le h2 hy), hr.forwarders⟩
  by_cases hpl : p < shadowSize img stores
  · have hround : roundUp (shadowSize img stores) = shadowSize img stores := by
      obtain ⟨k, hk⟩ := ha
      unfold roundUp
      omega
    obtain ⟨d, d1, d2⟩ := C42_complete img fuel key stores h p n (shadowSize img stores) hpl (.inr (by omega)) (mono _ _ (Nat.le_refl _))
    rw [d1]
    refine congrArg _ (List.ext_getElem? fun i => ?_)
    have hsound := (C42_sound img fuel key stores h p (some n) d (by rw [d1])).2
    rw [hround] at d2
    unfold slice
    rw [List.getElem?_take, List.getElem?_drop]
    by_cases hi : i < d.length
    · rw [hsound i hi, if_pos (by omega), v3 (p + i) (by omega), Nat.zero_add]
    · rw [List.getElem?_eq_none (by omega)]
      split
      · rw [List.getElem?_eq_none (by omega)]
      · rfl
  · have e1 : slice view p (p + n) = [] := by
      apply List.eq_nil_of_length_eq_zero
      rw [slice_length]; omega
    rw [e1]
    unfold ShadowCopy.read
    cases stores with
    | nil => exact absurd rfl hne
    | cons s next =>
      dsimp only
      rw [if_pos (.inr (by rw [virtualSize_eq img s next]; omega))]

end Verif.Props.AllMft
