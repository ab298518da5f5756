/-
Property C98: the table that `ntfs_parser --mft` writes.
-/
import Verif.Proof.MftTable
import Verif.Proof.Prefix
import Verif.Props.C97
namespace Verif.Props
open Verif.MFT Verif.Attributes Verif.Spec.Parser Verif.Scripts Verif.Spec.MftTable

theorem lookupPath_eq {file : Bytes} {p : MFT.Parser} (hp : Parser.init file true = .ok p) (n s : Nat) (o : Option Str)
    (h : lookupPath p n (some s) = .ok o) : o = pathBy p n s := by
  unfold lookupPath at h
  unfold pathBy
  cases hg : p.getRecord n (some s) with
  | error e =>
    rw [hg] at h
    dsimp only at h ⊢
    split at h <;> cases h
    rfl
  | ok r =>
    rw [hg] at h
    dsimp only at h ⊢
    unfold fullPaths at h
    cases hb : p.buildFullPaths r with
    | none => exact absurd hb (C18_paths_terminate file p hp r)
    | some x =>
      rw [hb] at h
      dsimp only at h
      cases x with
      | error e =>
        dsimp only at h ⊢
        split at h <;> cases h
        rfl
      | ok l => cases l <;> cases h <;> rfl

/-! ### The rows of a record -/

theorem entryName_of_ok {e : IndexEntry} {a : Option Bytes} (ha : e.attribute = .ok a) : a = entryName e.raw := by
  unfold IndexEntry.attribute IndexEntry.attributeLength IndexEntry.flags at ha
  cases h1 : unpackLE 2 (slice e.raw 10 12) with
  | error x => rw [h1] at ha; cases ha
  | ok n =>
    cases h2 : unpackLE 2 (slice e.raw 12 14) with
    | error x => rw [h1, h2] at ha; cases ha
    | ok fl =>
      rw [h1, h2] at ha
      dsimp only at ha
      unfold entryName
      rw [← (unpack_of_ok h1).2, ← (unpack_of_ok h2).2]
      have hbit : fl &&& 2 = 0 ↔ fl.testBit 1 = false := by
        have := and_two_pow_pos fl 1
        rw [show (2 : Nat) ^ 1 = 2 from rfl] at this
        cases hb : fl.testBit 1
        · rw [hb] at this; simp only [gt_iff_lt, Bool.false_eq_true, iff_false, Nat.not_lt, Nat.le_zero] at this; simp [this]
        · rw [hb] at this; simp only [gt_iff_lt, iff_true] at this; simp; omega
      by_cases hc : fl &&& 2 = 0 ∧ n > 0
      · rw [if_pos hc] at ha
        rw [if_pos ⟨hbit.1 hc.1, hc.2⟩]
        cases ha; rfl
      · rw [if_neg hc] at ha
        rw [if_neg (fun hx => hc ⟨hbit.2 hx.1, hx.2⟩)]
        cases ha; rfl

theorem attribute_ok {e : IndexEntry} (hlen : 14 ≤ e.raw.length) : e.attribute = .ok (entryName e.raw) := by
  unfold IndexEntry.attribute IndexEntry.attributeLength IndexEntry.flags
  rw [unpackLE_of_length (by rw [slice_length]; omega), unpackLE_of_length (by rw [slice_length]; omega)]
  dsimp only
  unfold entryName
  have hbit := and_two_pow_pos (leNat (slice e.raw 12 14)) 1
  rw [show (2 : Nat) ^ 1 = 2 from rfl] at hbit
  by_cases hc : leNat (slice e.raw 12 14) &&& 2 = 0 ∧ leNat (slice e.raw 10 12) > 0
  · have h0 : (leNat (slice e.raw 12 14)).testBit 1 = false := by
      rw [hc.1] at hbit
      simpa using hbit
    rw [if_pos hc, if_pos ⟨h0, hc.2⟩]
  · rw [if_neg hc, if_neg]
    rintro ⟨h1, h2⟩
    rw [h1] at hbit
    simp at hbit
    exact hc ⟨hbit, h2⟩

theorem indexRows_of_none {tag : Option Str} {paths : List (Str × Bytes)} {e : IndexEntry} (h : (indexRows tag paths e).err = none) :
    (indexRows tag paths e).items = ((entryName e.raw).map (indexRow tag paths e.raw)).toList := by
  unfold indexRows at h ⊢
  obtain ⟨a, ha, h⟩ := (andThen_err _ _).1 h
  have hentry := entryName_of_ok ha
  rw [ha, andThen_ok, ← hentry]
  cases a with
  | none => rfl
  | some v =>
    dsimp only at h ⊢
    obtain ⟨name, h1, h⟩ := (andThen_err _ _).1 h
    obtain ⟨reference, h2, h⟩ := (andThen_err _ _).1 h
    obtain ⟨dir, h3, h⟩ := (andThen_err _ _).1 h
    obtain ⟨fn, h4, h⟩ := (andThen_err _ _).1 h
    obtain ⟨size, h5, h⟩ := (andThen_err _ _).1 h
    rw [h1, andThen_ok, h2, andThen_ok, h3, andThen_ok, h4, andThen_ok, h5, andThen_ok]
    rw [isDirectory_of_ok h3, fileNameTimes_of_ok h4, size_of_ok h5, (unpack_of_ok h2).2, name_of_ok h1, pathIn_eq,
      source_eq "Index record" (by decide)]
    rfl

theorem slackRows_of_none {file : Bytes} {p : MFT.Parser} (hp : Parser.init file true = .ok p) {tag : Option Str} {c : Carved}
    (h : (slackRows p tag c).err = none) : (slackRows p tag c).items = [slackRow p tag c] := by
  cases c with
  | fileName v =>
    unfold slackRows at h ⊢
    dsimp only at h ⊢
    obtain ⟨parent, h1, h⟩ := (andThen_err _ _).1 h
    obtain ⟨directory, h2, h⟩ := (andThen_err _ _).1 h
    obtain ⟨name, h3, h⟩ := (andThen_err _ _).1 h
    obtain ⟨dir, h4, h⟩ := (andThen_err _ _).1 h
    obtain ⟨fn, h5, h⟩ := (andThen_err _ _).1 h
    obtain ⟨size, h6, h⟩ := (andThen_err _ _).1 h
    rw [h1, andThen_ok, h2, andThen_ok, h3, andThen_ok, h4, andThen_ok, h5, andThen_ok, h6, andThen_ok]
    rw [decode_ref] at h2
    rw [lookupPath_eq hp _ _ _ h2, isDirectory_of_ok h4, fileNameTimes_of_ok h5, size_of_ok h6, (unpack_of_ok h1).2, name_of_ok h3, pathIn_eq,
      source_eq "Slack" (by decide)]
    rfl
  | partialName s =>
    unfold slackRows slackRow
    rw [source_eq "Slack" (by decide)]
    rfl

theorem lastColumns_eq {attrs : List AttributeRecord} {c : Collected} (h : CollectedFrom attrs .start c) : lastColumns c = lastCells attrs (sortedSet c.streams) := by
  unfold lastColumns lastCells
  rw [h.time, h.size, h.linux]
  show _ = _
  simp only [Collected.start, Option.none_or]
  cases attrs.findSome? objectTime <;> cases attrs.findSome? unnamedSize <;> cases attrs.findSome? linuxTimes <;> rfl

theorem indexRows_yields {tag : Option Str} {paths : List (Str × Bytes)} {e : IndexEntry} :
    Yields (indexRows tag paths e) ((entryName e.raw).map (indexRow tag paths e.raw)).toList := by
  refine .of_none indexRows_of_none ?_
  refine Single.andThen fun a => ?_
  cases a with
  | none => exact .none
  | some v => exact .andThen fun _ => .andThen fun _ => .andThen fun _ => .andThen fun _ => .andThen fun _ => .one

theorem slackRows_yields {file : Bytes} {p : MFT.Parser} (hp : Parser.init file true = .ok p) {tag : Option Str} {c : Carved} :
    Yields (slackRows p tag c) [slackRow p tag c] := by
  refine .of_none (slackRows_of_none hp) ?_
  cases c with
  | fileName v =>
    exact Single.andThen fun _ => .andThen fun _ => .andThen fun _ => .andThen fun _ => .andThen fun _ => .andThen fun _ => .one
  | partialName s => exact Single.one

theorem fileRows_yields {file : Bytes} {size : Nat} {tag : Option Str} {r : FileRecord} {paths : List (Str × Bytes)} {c : Collected} {k : Nat}
    (hk : segmentAt file size k = some r.base) (hc : CollectedFrom r.attributes.items .start c) :
    ∃ n, HasNumber file size r n ∧ Yields (fileRows tag r paths c) (fileBlock tag r n (sortedSet c.streams) paths) := by
  have hsug : r.base.suggestedMftNumber = some k := segmentAt_suggested hk
  refine ⟨_, ⟨k, hk, rfl⟩, ?_⟩
  unfold fileRows
  refine .andThen fun si h1 => .andThen fun reference h2 => ?_
  unfold recordReference at h2
  rw [mftNumber_eq hsug] at h2
  cases h2
  have hsi : si = standardCells (r.attributes.items.findSome? standardValue) := by rw [standardColumns_of_ok h1, hc.standard]; rfl
  subst hsi
  dsimp only
  unfold fileBlock
  have hinuse : r.base.isInUse = (flagsOf r.base).testBit 0 := by
    unfold FileRecordSegment.isInUse
    rw [Bool.eq_iff_iff, decide_eq_true_iff]
    exact and_two_pow_pos _ 0
  by_cases hp : paths = []
  · subst hp
    rw [if_neg (by simp), if_pos rfl]
    rw [lastColumns_eq hc, source_eq "File record" (by decide), hinuse, isDirectory_eq]
    exact ⟨List.prefix_refl _, fun _ => rfl⟩
  · have hlen : paths.length > 0 := List.length_pos_iff.2 hp
    rw [if_pos hlen, if_neg hp]
    rw [← List.flatMap_singleton' (l := paths.map _), List.flatMap_map]
    refine .forEach fun x hx => .andThen fun fn h3 => ?_
    rw [fileNameTimes_of_ok h3, lastColumns_eq hc, source_eq "File record" (by decide), hinuse, isDirectory_eq]
    exact ⟨List.prefix_refl _, fun _ => rfl⟩

theorem findIndexRoot_of_ok {err : Option Exc} : ∀ (attrs : List AttributeRecord) (o : Option Bytes), findIndexRoot err attrs = .ok o →
    o = attrs.findSome? nameIndex
  | [], o, h => by
    cases err with
    | some e => cases h
    | none => cases h; rfl
  | .nonresident t n m lo hi size runs :: rest, o, h => by
    rw [findIndexRoot] at h
    rw [findIndexRoot_of_ok rest o h, List.findSome?_cons]
    rfl
  | .resident t n v :: rest, o, h => by
    rw [findIndexRoot] at h
    rw [List.findSome?_cons]
    by_cases hA : t = 0xA0
    · rw [if_pos hA] at h; cases h
    rw [if_neg hA] at h
    by_cases h9 : t = 0x90
    · rw [if_pos h9] at h
      subst h9
      rw [show nameIndex (.resident 0x90 n v) = if leNat (slice v 0 4) = 0x30 then some v else none from rfl]
      cases h1 : indexRootType v with
      | error e => rw [h1] at h; cases h
      | ok x =>
        rw [h1] at h
        rw [← (unpack_of_ok h1).2]
        by_cases hx : x = 0x30
        · subst hx
          cases h
          rw [if_pos rfl]
        · rw [if_neg hx]
          refine findIndexRoot_of_ok (err := err) rest o ?_
          revert h
          split
          · rename_i heq; cases heq
          · rename_i heq; cases heq; exact absurd rfl hx
          · exact id
    · rw [if_neg h9] at h
      have : nameIndex (.resident t n v) = none := by
        unfold nameIndex; split
        · rename_i heq; injection heq with h1; exact absurd h1 h9
        · rfl
      rw [this]
      exact findIndexRoot_of_ok rest o h

theorem findIndexRoot_ok : ∀ (attrs : List AttributeRecord), (∀ a ∈ attrs, ∀ n v, a ≠ .resident 0xA0 n v) →
    (∀ n v, .resident 0x90 n v ∈ attrs → 4 ≤ v.length) → ∃ o, findIndexRoot none attrs = .ok o
  | [], _, _ => ⟨none, rfl⟩
  | .nonresident t n m lo hi size runs :: rest, h1, h2 => by
    rw [findIndexRoot]
    exact findIndexRoot_ok rest (fun a ha => h1 a (List.mem_cons_of_mem _ ha)) (fun n v hv => h2 n v (List.mem_cons_of_mem _ hv))
  | .resident t n v :: rest, h1, h2 => by
    have ih := findIndexRoot_ok rest (fun a ha => h1 a (List.mem_cons_of_mem _ ha)) (fun n v hv => h2 n v (List.mem_cons_of_mem _ hv))
    rw [findIndexRoot, if_neg (fun hc => h1 _ (List.mem_cons_self ..) n v (by rw [hc]))]
    by_cases h9 : t = 0x90
    · rw [if_pos h9]
      subst h9
      have := h2 n v (List.mem_cons_self ..)
      unfold indexRootType
      rw [unpackLE_of_length (by rw [slice_length]; omega)]
      split
      · rename_i heq; cases heq
      · exact ⟨_, rfl⟩
      · exact ih
    · rw [if_neg h9]; exact ih

theorem toList_flatMap {α β : Type} (f : α → Option β) : ∀ l : List α, (l.flatMap fun x => (f x).toList) = l.filterMap f
  | [] => rfl
  | x :: l => by
    rw [List.flatMap_cons, toList_flatMap f l, List.filterMap_cons]
    cases f x <;> rfl

/-- What is written for a file record. -/
theorem recordRows_yields {file : Bytes} {p : MFT.Parser} (hp : Parser.init file true = .ok p) {tag : Option Str} {r : FileRecord} {k : Nat}
    (hk : segmentAt file p.size k = some r.base) : BeginsBlock file p tag r (recordRows p tag r).items ∧
      ((recordRows p tag r).err = none → IsBlock file p tag r (recordRows p tag r).items) := by
  unfold recordRows fullPaths
  cases hb : p.buildFullPaths r with
  | none => exact absurd hb (C18_paths_terminate file p hp r)
  | some x =>
    dsimp only
    cases x with
    | error e =>
      dsimp only
      by_cases he : isMftExc e = true
      · rw [if_pos he]; exact ⟨.inl rfl, fun _ => .inl ⟨rfl, e, he, hb⟩⟩
      · rw [if_neg he]; exact ⟨.inl rfl, (fun h => by cases h)⟩
    | ok paths =>
      dsimp only
      cases hc : collect r.attributes.err r.attributes.items .start with
      | error e => exact ⟨.inl rfl, (fun h => by cases h)⟩
      | ok c =>
        rw [andThen_ok]
        have hcol := collect_of_ok _ _ _ _ hc
        obtain ⟨n, hn, hfile⟩ := fileRows_yields (file := file) (size := p.size) (tag := tag) (paths := paths) hk hcol
        have hst : IsStreamList r.attributes.items (sortedSet c.streams) := by
          obtain ⟨s1, s2⟩ := sortedSet_spec c.streams
          refine ⟨s1, fun n => ?_⟩
          rw [s2, hcol.streams]
          simp [Collected.start]
        have key : Yields (((fileRows tag r paths c).append
            (if r.isDirectory then
              andThen (findIndexRoot r.attributes.err r.attributes.items) fun root =>
                match root with
                | none => .done
                | some v => forGen (indexRows tag paths) (indexRootEntries v)
            else .done)).append (forGen (fun slack => forEach (slackRows p tag) (carve [slack] true)) r.slack))
            (fileBlock tag r n (sortedSet c.streams) paths ++ indexBlock tag r paths ++ slackBlock p tag r) := by
          refine .append (.append hfile fun _ => ?_) fun _ => ?_
          · unfold indexBlock
            rw [isDirectory_eq]
            by_cases hd : (flagsOf r.base).testBit 1 = true
            · rw [if_pos hd, if_pos hd]
              refine .andThen fun root h1 => ?_
              rw [← findIndexRoot_of_ok _ _ h1]
              cases root with
              | none => exact .done
              | some v =>
                dsimp only
                rw [← toList_flatMap]
                exact .forGen fun e _ => indexRows_yields
            · rw [if_neg hd, if_neg hd]; exact .done
          · unfold slackBlock
            refine .forGen fun s _ => ?_
            rw [← List.flatMap_singleton' (l := (carve [s] true).map _), List.flatMap_map]
            exact .forEach fun c _ => slackRows_yields hp
        exact ⟨.inr ⟨paths, n, _, hb, hn, hst, key.1⟩, fun h => .inr ⟨paths, n, _, hb, hn, hst, key.2 h⟩⟩

theorem recordRows_of_none {file : Bytes} {p : MFT.Parser} (hp : Parser.init file true = .ok p) {tag : Option Str} {r : FileRecord} {k : Nat}
    (hk : segmentAt file p.size k = some r.base) (h : (recordRows p tag r).err = none) : IsBlock file p tag r (recordRows p tag r).items :=
  (recordRows_yields hp hk).2 h

/-! ### Exceptions -/

theorem segment_slack_ok {f : FileRecordSegment} (h : f.attributes.err = none) : ∃ x, f.slack = .ok x := by
  unfold FileRecordSegment.slack
  rw [h]
  dsimp only
  cases f.attributes.realSize <;> exact ⟨_, rfl⟩

theorem slack_none : ∀ (l : List FileRecordSegment), (l.foldr (fun f rest => f.attributesGen.append rest) Gen.done).err = none →
    (l.foldr (fun f rest =>
      match f.slack with
      | .error e => .fail e
      | .ok none => rest
      | .ok (some s) => .cons s rest) (Gen.done : Gen Bytes)).err = none
  | [], _ => rfl
  | f :: l, h => by
    rw [List.foldr_cons] at h ⊢
    obtain ⟨h1, h2⟩ := (append_err _ _).1 h
    obtain ⟨x, hx⟩ := segment_slack_ok (f := f) h1
    have ih := slack_none l h2
    rw [hx]
    cases x with
    | none => exact ih
    | some s => exact ih

theorem record_slack_none {r : FileRecord} (h : r.attributes.err = none) : r.slack.err = none := slack_none _ h

theorem carved_length {s v : Bytes} (h : Carved.fileName v ∈ carve [s] true) : 66 ≤ v.length := by
  obtain ⟨value, -, h1, -⟩ := C21_entries_inside_partial [s] true v h
  rcases h1 with ⟨a, h1, rfl⟩ | ⟨a, h0, h1, rfl⟩
  · rw [List.length_drop]; omega
  · rw [List.length_append, List.length_drop, List.length_replicate]; omega

/-- The paths of a record cannot be built, because of an exception that is not one of the file table. -/
def PathsStop (p : MFT.Parser) (r : FileRecord) (e : Exc) : Prop :=
  isMftExc e = false ∧ ∃ r', (r' = r ∨ ∃ n s, p.getRecord n s = .ok r') ∧ p.buildFullPaths r' = some (.error e)

theorem recordRows_some {file : Bytes} {p : MFT.Parser} (hp : Parser.init file true = .ok p) {tag : Option Str} {r : FileRecord} {k : Nat}
    (hk : segmentAt file p.size k = some r.base) (ht : Tabular r) {e : Exc} (h : (recordRows p tag r).err = some e) : PathsStop p r e := by
  unfold recordRows at h
  unfold fullPaths at h
  cases hb : p.buildFullPaths r with
  | none => exact absurd hb (C18_paths_terminate file p hp r)
  | some x =>
    rw [hb] at h
    dsimp only at h
    cases x with
    | error e' =>
      dsimp only at h
      by_cases he : isMftExc e' = true
      · rw [if_pos he] at h; cases h
      · rw [if_neg he] at h; cases h
        exact ⟨by simpa using he, r, .inl rfl, hb⟩
    | ok paths =>
      dsimp only at h
      obtain ⟨c, hc⟩ := collect_ok r.attributes.items .start ht.readable.2.1 ht.linux
      rw [ht.readable.1, hc, andThen_ok] at h
      have hcol := collect_of_ok _ _ _ _ hc
      rcases append_some h with h | h
      · rcases append_some h with h | h
        · exfalso
          unfold fileRows at h
          have hstd : ∀ v, c.standardInformation = some v → 32 ≤ v.length := by
            intro v hv
            refine ht.standard v ?_
            rw [← hv, hcol.standard]; rfl
          rw [standardColumns_ok hstd, andThen_ok] at h
          unfold recordReference at h
          rw [mftNumber_eq (segmentAt_suggested hk)] at h
          dsimp only at h
          rw [andThen_ok] at h
          by_cases hl : paths.length > 0
          · rw [if_pos hl] at h
            obtain ⟨x, hx, h⟩ := forEach_some h
            have hx' : x.2 ∈ paths.map (·.2) := List.mem_map.2 ⟨x, hx, rfl⟩
            rw [C19_one_path_per_name file p r paths hp hb] at hx'
            have hx'' : x.2 ∈ fileNames r.attributes.items := by
              simp only [List.mem_append, List.mem_reverse, List.mem_filter] at hx'
              rcases hx' with h | h <;> exact h.1
            rw [fileNameTimes_ok (ht.readable.2.2 _ hx''), andThen_ok] at h
            cases h
          · rw [if_neg hl] at h; cases h
        · exfalso
          rw [isDirectory_eq] at h
          by_cases hd : (flagsOf r.base).testBit 1 = true
          · rw [if_pos hd] at h
            obtain ⟨root, hroot⟩ := findIndexRoot_ok r.attributes.items ht.readable.2.1 (ht.roots hd)
            rw [hroot, andThen_ok] at h
            have := findIndexRoot_of_ok _ _ hroot
            cases root with
            | none => cases h
            | some v =>
              obtain ⟨he, hall⟩ := ht.entries hd v this.symm
              rcases forGen_some h with ⟨x, hx, h⟩ | h
              · obtain ⟨hlen, hname⟩ := hall x hx
                unfold indexRows at h
                have hattr := attribute_ok (e := x) (by omega)
                rw [hattr, andThen_ok] at h
                cases hn : entryName x.raw with
                | none => rw [hn] at h; cases h
                | some a =>
                  rw [hn] at h
                  have h66 := hname a hn
                  dsimp only at h
                  unfold IndexEntry.fileReference at h
                  rw [name_ok h66, andThen_ok, unpackLE_of_length (by rw [slice_length]; omega), andThen_ok, isDirectory_ok h66, andThen_ok,
                    fileNameTimes_ok h66, andThen_ok, size_ok h66, andThen_ok] at h
                  cases h
              · rw [he] at h; cases h
          · rw [if_neg hd] at h; cases h
      · rcases forGen_some h with ⟨s, hs, h⟩ | h
        · obtain ⟨x, hx, h⟩ := forEach_some h
          cases x with
          | partialName t => cases h
          | fileName v =>
            have h66 := carved_length hx
            unfold slackRows at h
            dsimp only at h
            unfold fileNameParent at h
            rw [unpackLE_of_length (by rw [slice_length]; omega), andThen_ok] at h
            rcases andThen_some h with h | ⟨d, -, h⟩
            · rw [decode_ref] at h
              obtain ⟨r', g1, g2, g3⟩ := lookupPath_error hp _ _ _ h
              exact ⟨g3, r', .inr ⟨_, _, g1⟩, g2⟩
            · exfalso
              rw [name_ok h66, andThen_ok, isDirectory_ok h66, andThen_ok, fileNameTimes_ok h66, andThen_ok, size_ok h66, andThen_ok] at h
              cases h
        · rw [record_slack_none ht.readable.1] at h; cases h

/-! ### The table -/

/-- C98: the table is the header and blocks of rows for the file records, in the order of their numbers: one block for each, from the first
one on.  A block has a row for each path of the record, with the columns that the attributes of this record define, and rows for the entries
of the index and the remnants in the slack space of this record (`IsBlock`).  All the blocks are written, unless the program stops (with an
exception) at a record: then a row cannot be made from this record, or paths cannot be built, and what has been written for it is the beginning
of its block. -/
theorem C98_mft_table (file : Bytes) (tag : Option Str) (p : MFT.Parser) (hp : Parser.init file true = .ok p) :
    ∃ (records : List FileRecord) (blocks : List (List Row)) (more : List Row) (err : Option Exc), p.fileRecords = ⟨records, none⟩ ∧ processMft file tag true = ⟨header :: (blocks.flatten ++ more), err⟩ ∧
      blocks.length ≤ records.length ∧
      (∀ (i : Nat) (rows : List Row), blocks[i]? = some rows → ∃ r, records[i]? = some r ∧ IsBlock file p tag r rows) ∧
      (err = none → more = [] ∧ blocks.length = records.length) ∧
      (∀ e, err = some e → ∃ r, records[blocks.length]? = some r ∧ (¬ Tabular r ∨ PathsStop p r e) ∧ BeginsBlock file p tag r more) := by
  have hrec := C75_file_records file p hp false
  generalize hl : ((List.range (file.length / p.size)).filterMap (recordAt file p.size)).filter
      (fun r => !false || (flagsOf r.base).testBit 0) = records at hrec
  have hk : ∀ r ∈ records, ∃ k, segmentAt file p.size k = some r.base := by
    intro r hr
    have : r ∈ (p.fileRecords false).items := by rw [hrec]; exact hr
    obtain ⟨k, -, h, -⟩ := (C75_agrees_with_lookup file p hp r).1 this
    exact ⟨k, h⟩
  have hproc : processMft file tag true = .cons header ((forEach (recordRows p tag) records).append ⟨[], none⟩) := by
    unfold processMft
    rw [show Parser.init file = .ok p from hp, andThen_ok]
    rw [show p.fileRecords = ⟨records, none⟩ from hrec]
    rfl
  rcases forEach_split (recordRows p tag) records with hall | ⟨pre, x, post, e, h1, h2, h3, h4⟩
  · refine ⟨records, records.map fun r => (recordRows p tag r).items, [], none, hrec, ?_, by simp, ?_, fun _ => ⟨rfl, by simp⟩, (fun e he => by cases he)⟩
    · rw [hproc]
      have herr := (forEach_err _ _).2 hall
      have hi := forEach_items _ _ hall
      unfold Gen.append Gen.cons
      rw [herr, hi]
      simp [List.flatMap_def]
    · intro i rows hrows
      rw [List.getElem?_map] at hrows
      cases hx : records[i]? with
      | none => rw [hx] at hrows; cases hrows
      | some r =>
        rw [hx] at hrows
        cases hrows
        have hm := List.mem_of_getElem? hx
        obtain ⟨k, hk⟩ := hk r hm
        exact ⟨r, rfl, recordRows_of_none hp hk (hall r hm)⟩
  · refine ⟨records, pre.map fun r => (recordRows p tag r).items, (recordRows p tag x).items, some e, hrec, ?_, by rw [h1]; simp, ?_, (fun he => by cases he), ?_⟩
    · rw [hproc, h4]
      simp [Gen.append, Gen.cons, List.flatMap_def]
    · intro i rows hrows
      rw [List.getElem?_map] at hrows
      cases hx : pre[i]? with
      | none => rw [hx] at hrows; cases hrows
      | some r =>
        rw [hx] at hrows
        cases hrows
        have hm := List.mem_of_getElem? hx
        obtain ⟨k, hk⟩ := hk r (by rw [h1]; simp [hm])
        refine ⟨r, ?_, recordRows_of_none hp hk (h2 r hm)⟩
        rw [h1, List.getElem?_append_left (List.getElem?_eq_some_iff.1 hx).1, hx]
    · intro e' he
      cases he
      obtain ⟨k, hk⟩ := hk x (by rw [h1]; simp)
      refine ⟨x, by rw [h1]; simp, ?_, (recordRows_yields hp hk).1⟩
      by_cases ht : Tabular x
      · exact .inr (recordRows_some hp hk ht h3)
      · exact .inl ht

/-- C98, the part that is missing from the above: no file record is left out.  This is not true of every file table (see below), but when
paths can be built and rows can be made from all the records, each of them has its rows. -/
theorem C98_complete_partial (file : Bytes) (tag : Option Str) (p : MFT.Parser) (hp : Parser.init file true = .ok p) (hu : UsableTable file p.size)
    (ht : ∀ r ∈ p.fileRecords.items, Tabular r) :
    ∃ blocks : List (List Row), processMft file tag true = ⟨header :: blocks.flatten, none⟩ ∧ blocks.length = p.fileRecords.items.length ∧
      ∀ (i : Nat) (rows : List Row), blocks[i]? = some rows → rows ≠ [] ∧ ∃ r, p.fileRecords.items[i]? = some r ∧ IsBlock file p tag r rows := by
  obtain ⟨records, blocks, more, err, h1, h2, -, h4, h5, h6⟩ := C98_mft_table file tag p hp
  have hfound : ∀ r ∈ p.fileRecords.items, ∀ e, p.buildFullPaths r ≠ some (.error e) := by
    intro r hr e
    obtain ⟨k, -, -, hg⟩ := (C75_agrees_with_lookup file p hp r).1 hr
    exact buildFullPaths_usable hp hu hg e
  have herr : err = none := by
    cases err with
    | none => rfl
    | some e =>
      exfalso
      obtain ⟨r, hr, h⟩ := h6 e rfl
      have hm : r ∈ p.fileRecords.items := by rw [h1]; exact List.mem_of_getElem? hr
      rcases h with h | ⟨-, r', h, hb⟩
      · exact h (ht r hm)
      · rcases h with rfl | ⟨n, s, hg⟩
        · exact hfound r' hm e hb
        · exact buildFullPaths_usable hp hu hg e hb
  subst herr
  obtain ⟨rfl, hlen⟩ := h5 rfl
  refine ⟨blocks, by rw [h2, List.append_nil], by rw [h1]; exact hlen, fun i rows hrows => ?_⟩
  obtain ⟨r, hr, hblock⟩ := h4 i rows hrows
  have hr' : p.fileRecords.items[i]? = some r := by rw [h1]; exact hr
  refine ⟨?_, r, hr', hblock⟩
  rcases hblock with ⟨-, e, -, hb⟩ | ⟨paths, n, streams, -, -, -, rfl⟩
  · exact absurd hb (hfound r (List.mem_of_getElem? hr') e)
  · unfold fileBlock
    by_cases hn : paths = []
    · rw [if_pos hn]; simp
    · rw [if_neg hn]
      cases paths with
      | nil => exact absurd rfl hn
      | cons x l => simp

end Verif.Props
