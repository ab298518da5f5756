/-
Properties C77 and C78: the tables attached to log records.
-/
import Verif.Model.LogFile.Replay
import Verif.Proof.SampleLog
namespace Verif.Props
open Verif.LogFile

/-! ### Specification -/

/-- The buffers of the log records among the items. -/
def logRecordsOf : List Item → List Bytes
  | [] => []
  | ⟨.logRecord buf _ _, _, _, _⟩ :: rest => buf :: logRecordsOf rest
  | ⟨.restartArea _ _, _, _, _⟩ :: rest => logRecordsOf rest

/-- The redo and undo data of a log record. -/
def redoBytes (buf : Bytes) : Bytes := if leNat (slice buf 6 8) = 0 then [] else slice buf (leNat (slice buf 4 6)) (leNat (slice buf 4 6) + leNat (slice buf 6 8))
def undoBytes (buf : Bytes) : Bytes := if leNat (slice buf 10 12) = 0 then [] else slice buf (leNat (slice buf 8 10)) (leNat (slice buf 8 10) + leNat (slice buf 10 12))

/-- The file reference in an open attribute entry: the versions have different layouts. -/
def entryReference (version : Nat) (entry : Bytes) : Option Nat :=
  if version = 0 then (if entry.length < 44 then none else some (leNat (slice entry 8 16)))
  else (if entry.length < 40 then none else some (leNat (slice entry 16 24)))

/-- The open attribute with a given index after a history of log records, the last one first: the last
operation "open nonresident attribute" with this index, unless an invalid one followed. -/
def openAttribute (version : Nat) (index : Nat) : List Bytes → Option (Nat × Str)
  | [] => none
  | buf :: before =>
    if leNat (slice buf 0 2) = 0x1C then
      match entryReference version (redoBytes buf) with
      | none => none
      | some reference =>
        if leNat (slice buf 12 14) = index then some (reference, utf16Decode (undoBytes buf)) else openAttribute version index before
    else openAttribute version index before

/-- The dumps of a kind (the operations 0x1D and 0x1E) in a history, the last one first. -/
def dumpsOf (operation : Nat) (records : List Bytes) : List Bytes :=
  (records.filter (fun buf => leNat (slice buf 0 2) = operation)).map redoBytes

/-- `oat.get(index)`. -/
def lookup (oat : List OatEntry) (index : Nat) : Option (Nat × Str) := (oat.find? (·.1 = index)).map (·.2)

/-! ### Proofs -/

theorem redoData_ok {buf d : Bytes} (h : redoData buf = .ok d) : d = redoBytes buf := by
  unfold redoData at h
  have e : redoBytes buf = if redoLength buf = 0 then [] else slice buf (u16 buf 4) (u16 buf 4 + redoLength buf) := rfl
  rw [e]
  split at h
  · rename_i hl; cases h; rw [if_pos hl]
  · rename_i hl
    rw [if_neg hl]
    unfold redoOffset at h
    split at h
    · cases h
    · rename_i o ho
      split at ho
      · cases ho
      · cases ho; cases h; rfl

theorem undoData_ok {buf d : Bytes} (h : undoData buf = .ok d) : d = undoBytes buf := by
  unfold undoData at h
  have e : undoBytes buf = if undoLength buf = 0 then [] else slice buf (u16 buf 8) (u16 buf 8 + undoLength buf) := rfl
  rw [e]
  split at h
  · rename_i hl; cases h; rw [if_pos hl]
  · rename_i hl
    rw [if_neg hl]
    unfold undoOffset at h
    split at h
    · cases h
    · rename_i o ho
      split at ho
      · cases ho
      · cases ho; cases h; rfl

theorem openAttributeReference_eq (version : Nat) (entry : Bytes) : openAttributeReference version entry =
    match entryReference version entry with | none => .error .ClientException | some r => .ok r := by
  unfold openAttributeReference entryReference
  by_cases h : version = 0
  · subst h
    rw [if_neg (by omega), if_pos rfl]
    split <;> rfl
  · rw [if_pos (by omega), if_neg h]
    split <;> rfl

theorem lookup_oatSet (oat : List OatEntry) (i r : Nat) (n : Str) (index : Nat) :
    lookup (oatSet oat i r n) index = if i = index then some (r, n) else lookup oat index := by
  unfold lookup oatSet
  by_cases h : i = index
  · rw [if_pos h, List.find?_cons_of_pos (by simpa using h)]; rfl
  · rw [if_neg h, List.find?_cons_of_neg (by simpa using h)]
    congr 1
    induction oat with
    | nil => rfl
    | cons a l ih =>
      by_cases ha : a.1 = i
      · rw [List.filter_cons_of_neg (by simpa using ha), ih, List.find?_cons_of_neg (by simp; omega)]
      · rw [List.filter_cons_of_pos (by simpa using ha), List.find?_cons, List.find?_cons, ih]

/-- The invariant of the loop: what the local variables hold after a history of log records. -/
structure Tracks (config : Config) (records : List Bytes) (t : Tables) : Prop where
  oat : ∀ index, lookup t.oat index = openAttribute config.oatVersion index records
  useless : config.useDumps = some false → t.oatCount = 0
  oatCount : config.useDumps = some true → t.oatCount = (dumpsOf 0x1D records).length
  anCount : config.useDumps = some true → t.anCount = (dumpsOf 0x1E records).length
  latestOat : config.useDumps = some true → t.latestOat = (dumpsOf 0x1D records)[0]?
  oldOat : config.useDumps = some true → t.oldOat = (dumpsOf 0x1D records)[1]?
  latestAn : config.useDumps = some true → t.latestAn = (dumpsOf 0x1E records)[0]?
  oldAn : config.useDumps = some true → t.oldAn = (dumpsOf 0x1E records)[1]?

theorem tracks_nil (config : Config) : Tracks config [] {} :=
  ⟨fun _ => rfl, fun _ => rfl, fun _ => rfl, fun _ => rfl, fun _ => rfl, fun _ => rfl, fun _ => rfl, fun _ => rfl⟩

theorem dumpsOf_cons_pos {op : Nat} {buf : Bytes} {records : List Bytes} (h : redoOperation buf = op) :
    dumpsOf op (buf :: records) = redoBytes buf :: dumpsOf op records := by
  unfold dumpsOf
  rw [List.filter_cons_of_pos (p := fun buf : Bytes => decide (leNat (slice buf 0 2) = op)) (decide_eq_true h), List.map_cons]

theorem dumpsOf_cons_neg {op : Nat} {buf : Bytes} {records : List Bytes} (h : redoOperation buf ≠ op) :
    dumpsOf op (buf :: records) = dumpsOf op records := by
  unfold dumpsOf
  rw [List.filter_cons_of_neg (p := fun buf : Bytes => decide (leNat (slice buf 0 2) = op)) (fun e => h (of_decide_eq_true e))]

theorem openAttribute_cons_neg {v i : Nat} {buf : Bytes} {records : List Bytes} (h : redoOperation buf ≠ 0x1C) :
    openAttribute v i (buf :: records) = openAttribute v i records := by
  rw [openAttribute]
  exact if_neg h

theorem update_tracks {config : Config} {records : List Bytes} {t t' : Tables} {buf : Bytes} (ht : Tracks config records t)
    (h : t.update config buf = .ok t') : Tracks config (buf :: records) t' := by
  unfold Tables.update at h
  split at h
  · rename_i hop
    split at h
    · cases h
    rename_i name hname
    split at h
    · cases h
    rename_i entry hentry
    have hn := undoData_ok hname
    have he := redoData_ok hentry
    subst hn he
    have hopen : ∀ i, openAttribute config.oatVersion i (buf :: records) = match entryReference config.oatVersion (redoBytes buf) with
        | none => none
        | some r => if targetAttribute buf = i then some (r, utf16Decode (undoBytes buf)) else openAttribute config.oatVersion i records :=
      fun i => by rw [openAttribute]; exact if_pos hop
    rw [openAttributeReference_eq] at h
    have h1 : dumpsOf 0x1D (buf :: records) = dumpsOf 0x1D records := dumpsOf_cons_neg (by rw [hop]; decide)
    have h2 : dumpsOf 0x1E (buf :: records) = dumpsOf 0x1E records := dumpsOf_cons_neg (by rw [hop]; decide)
    have hrest : ∀ {t'' : Tables}, (∀ i, lookup t''.oat i = openAttribute config.oatVersion i (buf :: records)) →
        t''.oatCount = t.oatCount → t''.anCount = t.anCount → t''.latestOat = t.latestOat → t''.oldOat = t.oldOat →
        t''.latestAn = t.latestAn → t''.oldAn = t.oldAn → Tracks config (buf :: records) t'' := by
      intro t'' a1 a2 a3 a4 a5 a6 a7
      refine ⟨a1, ?_, ?_, ?_, ?_, ?_, ?_, ?_⟩
      · rw [a2]; exact ht.useless
      · rw [a2, h1]; exact ht.oatCount
      · rw [a3, h2]; exact ht.anCount
      · rw [a4, h1]; exact ht.latestOat
      · rw [a5, h1]; exact ht.oldOat
      · rw [a6, h2]; exact ht.latestAn
      · rw [a7, h2]; exact ht.oldAn
    cases hr : entryReference config.oatVersion (redoBytes buf) with
    | none =>
      rw [hr] at h
      cases h
      exact hrest (fun i => by rw [hopen, hr]; rfl) rfl rfl rfl rfl rfl rfl
    | some r =>
      rw [hr] at h
      cases h
      exact hrest (fun i => by rw [hopen, hr, lookup_oatSet, ht.oat]) rfl rfl rfl rfl rfl rfl
  · rename_i hop
    have ho : ∀ i, openAttribute config.oatVersion i (buf :: records) = openAttribute config.oatVersion i records :=
      fun i => openAttribute_cons_neg hop
    split at h
    · cases h
    rename_i useDumps hu
    split at h
    · rename_i h1
      split at h
      · cases h
      rename_i dump hd
      have hd := redoData_ok hd
      subst hd
      cases h
      have hu : config.useDumps = some true := by rw [hu, h1.1]
      have hD : dumpsOf 0x1D (buf :: records) = redoBytes buf :: dumpsOf 0x1D records := dumpsOf_cons_pos h1.2
      have hE : dumpsOf 0x1E (buf :: records) = dumpsOf 0x1E records := dumpsOf_cons_neg (by rw [h1.2]; decide)
      refine ⟨fun i => by rw [ho]; exact ht.oat i, (fun h => by rw [hu] at h; cases h), fun _ => ?_, fun _ => ?_, fun _ => ?_, fun _ => ?_, fun _ => ?_, fun _ => ?_⟩
      · rw [hD, List.length_cons, ← ht.oatCount hu]
      · rw [hE]; exact ht.anCount hu
      · rw [hD]; rfl
      · rw [hD]; exact ht.latestOat hu
      · rw [hE]; exact ht.latestAn hu
      · rw [hE]; exact ht.oldAn hu
    rename_i h1
    split at h
    · rename_i h2
      split at h
      · cases h
      rename_i dump hd
      have hd := redoData_ok hd
      subst hd
      cases h
      have hu : config.useDumps = some true := by rw [hu, h2.1]
      have hE : dumpsOf 0x1E (buf :: records) = redoBytes buf :: dumpsOf 0x1E records := dumpsOf_cons_pos h2.2
      have hD : dumpsOf 0x1D (buf :: records) = dumpsOf 0x1D records := dumpsOf_cons_neg (by rw [h2.2]; decide)
      refine ⟨fun i => by rw [ho]; exact ht.oat i, (fun h => by rw [hu] at h; cases h), fun _ => ?_, fun _ => ?_, fun _ => ?_, fun _ => ?_, fun _ => ?_, fun _ => ?_⟩
      · rw [hD]; exact ht.oatCount hu
      · rw [hE, List.length_cons, ← ht.anCount hu]
      · rw [hD]; exact ht.latestOat hu
      · rw [hD]; exact ht.oldOat hu
      · rw [hE]; rfl
      · rw [hE]; exact ht.latestAn hu
    rename_i h2
    cases h
    have hDE : config.useDumps = some true → dumpsOf 0x1D (buf :: records) = dumpsOf 0x1D records ∧ dumpsOf 0x1E (buf :: records) = dumpsOf 0x1E records := by
      intro h
      rw [hu] at h
      cases h
      exact ⟨dumpsOf_cons_neg (fun h => h1 ⟨rfl, h⟩), dumpsOf_cons_neg (fun h => h2 ⟨rfl, h⟩)⟩
    refine ⟨fun i => by rw [ho]; exact ht.oat i, ht.useless, fun h => ?_, fun h => ?_, fun h => ?_, fun h => ?_, fun h => ?_, fun h => ?_⟩
    · rw [(hDE h).1]; exact ht.oatCount h
    · rw [(hDE h).2]; exact ht.anCount h
    · rw [(hDE h).1]; exact ht.latestOat h
    · rw [(hDE h).1]; exact ht.oldOat h
    · rw [(hDE h).2]; exact ht.latestAn h
    · rw [(hDE h).2]; exact ht.oldAn h

/-- What is attached to a log record, given the history up to it (with it, the last one first). -/
structure Attached (config : Config) (history : List Bytes) (item : Item) : Prop where
  oat : ∀ index, lookup item.oat index = openAttribute config.oatVersion index history
  useDumps : config.useDumps ≠ none
  noDumps : config.useDumps = some false ∨ (dumpsOf 0x1D history).length = 0 → item.oatDump = none ∧ item.anDump = none
  latest : config.useDumps = some true → (dumpsOf 0x1D history).length = (dumpsOf 0x1E history).length →
    item.oatDump = (dumpsOf 0x1D history)[0]? ∧ item.anDump = (dumpsOf 0x1E history)[0]?
  older : config.useDumps = some true → (dumpsOf 0x1D history).length ≠ 0 → (dumpsOf 0x1D history).length ≠ (dumpsOf 0x1E history).length →
    item.oatDump = (dumpsOf 0x1D history)[1]? ∧ item.anDump = (dumpsOf 0x1E history)[1]?

theorem attach_attached {config : Config} {history : List Bytes} {t : Tables} {d : Decoded} {item : Item}
    (ht : Tracks config history t) (h : t.attach config d = .ok item) : Attached config history item ∧ item.decoded = d := by
  unfold Tables.attach at h
  split at h
  · cases h
  rename_i u hu
  have hne : config.useDumps ≠ none := by rw [hu]; exact (fun h => nomatch h)
  cases u with
  | false =>
    rw [if_neg (fun h => nomatch h.1), if_neg (fun h => nomatch h.1)] at h
    cases h
    exact ⟨⟨ht.oat, hne, fun _ => ⟨rfl, rfl⟩, (fun h => by rw [hu] at h; cases h), (fun h => by rw [hu] at h; cases h)⟩, rfl⟩
  | true =>
    rw [ht.oatCount hu, ht.anCount hu] at h
    split at h
    · rename_i h1
      cases h
      refine ⟨⟨ht.oat, hne, fun h => ?_, fun _ _ => ⟨ht.latestOat hu, ht.latestAn hu⟩, fun _ _ h => absurd h1.2.2 h⟩, rfl⟩
      rw [hu] at h
      rcases h with h | h
      · cases h
      · omega
    · rename_i h1
      split at h
      · rename_i h2
        cases h
        refine ⟨⟨ht.oat, hne, fun h => ?_, fun _ h => absurd h h2.2.2, fun _ _ _ => ⟨ht.oldOat hu, ht.oldAn hu⟩⟩, rfl⟩
        rw [hu] at h
        rcases h with h | h
        · cases h
        · omega
      · rename_i h2
        cases h
        have h0 : (dumpsOf 0x1D history).length = 0 := by
          refine Nat.eq_zero_of_not_pos fun hpos => ?_
          by_cases he : (dumpsOf 0x1D history).length = (dumpsOf 0x1E history).length
          · exact h1 ⟨rfl, hpos, he⟩
          · exact h2 ⟨rfl, hpos, he⟩
        refine ⟨⟨ht.oat, hne, fun _ => ⟨rfl, rfl⟩, fun _ h => ?_, fun _ h => absurd h0 h⟩, rfl⟩
        rw [List.length_eq_zero_iff.mp h0, List.length_eq_zero_iff.mp (h.symm.trans h0)]
        exact ⟨rfl, rfl⟩

theorem parseClient_attached {p : Parser} {file : Bytes} {fuel : Nat} {config : Config} : ∀ {lsns : List Nat} {t : Tables} {g : Gen Item}
    {records : List Bytes}, p.parseClient file fuel config lsns t = some g → Tracks config records t →
    ∀ pre item post, g.items = pre ++ item :: post → ∀ buf lsn tid, item.decoded = .logRecord buf lsn tid →
      Attached config (buf :: ((logRecordsOf pre).reverse ++ records)) item
  | [], t, g, records, h, ht, pre, item, post, hi, buf, lsn, tid, hd => by
    cases h
    cases pre <;> cases hi
  | l :: rest, t, g, records, h, ht, pre, item, post, hi, buf, lsn, tid, hd => by
    unfold Parser.parseClient at h
    split at h
    · cases h
    · cases h; cases pre <;> cases hi
    · split at h
      · exact parseClient_attached h ht pre item post hi buf lsn tid hd
      · cases h; cases pre <;> cases hi
      · obtain ⟨g', hg', rfl⟩ := Option.map_eq_some_iff.mp h
        cases pre with
        | nil => cases hi; cases hd
        | cons a pre =>
          obtain ⟨rfl, hi'⟩ := List.cons.inj hi
          exact parseClient_attached hg' ht pre item post hi' buf lsn tid hd
      · rename_i b n i hdec
        split at h
        · cases h; cases pre <;> cases hi
        · rename_i t' ht'
          have hu := update_tracks ht ht'
          split at h
          · cases h; cases pre <;> cases hi
          · rename_i it hit
            obtain ⟨ha, hdd⟩ := attach_attached hu hit
            obtain ⟨g', hg', rfl⟩ := Option.map_eq_some_iff.mp h
            cases pre with
            | nil =>
              obtain ⟨rfl, hi⟩ := List.cons.inj hi
              rw [hdd] at hd
              cases hd
              exact ha
            | cons a pre =>
              obtain ⟨rfl, hi'⟩ := List.cons.inj hi
              have := parseClient_attached hg' hu pre item post hi' buf lsn tid hd
              have he : logRecordsOf (it :: pre) = b :: logRecordsOf pre := by
                cases it with
                | mk d _ _ _ =>
                  dsimp only at hdd
                  subst hdd
                  rfl
              rw [he, List.reverse_cons, List.append_assoc]
              exact this

/-- C77: the open attribute table attached to a log record has, for each index, the file reference and the
name of the last operation that opened an attribute with this index, among the log records of the same
client up to this one; an operation with an invalid entry clears the table. -/
theorem C77_open_attributes (p : Parser) (file : Bytes) (fuel : Nat) (config : Config) (lsns : List Nat) (g : Gen Item)
    (h : p.parseClient file fuel config lsns {} = some g) (pre : List Item) (item : Item) (post : List Item)
    (hi : g.items = pre ++ item :: post) (buf : Bytes) (lsn tid : Nat) (hd : item.decoded = .logRecord buf lsn tid) (index : Nat) :
    lookup item.oat index = openAttribute config.oatVersion index (buf :: (logRecordsOf pre).reverse) := by
  have := (parseClient_attached h (tracks_nil config) pre item post hi buf lsn tid hd).oat index
  rwa [List.append_nil] at this

/-- C78, what holds: as long as there are as many dumps of the open attribute table as dumps of attribute
names, a log record gets the last of each; without dumps it gets none.  With different numbers it gets
the last but one of each, which need not belong together (`C78_dumps_do_not_match`). -/
theorem C78_dumps_partial (p : Parser) (file : Bytes) (fuel : Nat) (config : Config) (lsns : List Nat) (g : Gen Item)
    (h : p.parseClient file fuel config lsns {} = some g) (pre : List Item) (item : Item) (post : List Item)
    (hi : g.items = pre ++ item :: post) (buf : Bytes) (lsn tid : Nat) (hd : item.decoded = .logRecord buf lsn tid)
    (history : List Bytes) (hh : history = buf :: (logRecordsOf pre).reverse) :
    (config.useDumps = some false ∨ dumpsOf 0x1D history = [] → item.oatDump = none ∧ item.anDump = none) ∧
    (config.useDumps = some true → (dumpsOf 0x1D history).length = (dumpsOf 0x1E history).length →
      item.oatDump = (dumpsOf 0x1D history).head? ∧ item.anDump = (dumpsOf 0x1E history).head?) ∧
    (config.useDumps = some true → dumpsOf 0x1D history ≠ [] → (dumpsOf 0x1D history).length ≠ (dumpsOf 0x1E history).length →
      item.oatDump = (dumpsOf 0x1D history)[1]? ∧ item.anDump = (dumpsOf 0x1E history)[1]?) := by
  have ha := parseClient_attached h (tracks_nil config) pre item post hi buf lsn tid hd
  rw [List.append_nil, ← hh] at ha
  refine ⟨fun h => ha.noDumps (h.imp id (by intro h; rw [h]; rfl)), fun h1 h2 => ?_, fun h1 h2 h3 => ?_⟩
  · rw [List.head?_eq_getElem?, List.head?_eq_getElem?]
    exact ha.latest h1 h2
  · exact ha.older h1 (fun h => h2 (List.length_eq_zero_iff.mp h)) h3

/-! ### Concrete cases -/

/-- A log record without data but for the 32 bytes: an operation, and redo data of `n` bytes from the
beginning of the record. -/
def smallRecord (operation n : Nat) : Bytes := [natLE 2 operation, zeros 4, natLE 2 n, zeros 24].flatten

/-- A log with two dumps of each kind (of 1 and 2 bytes), then a third dump of the open attribute table. -/
def dumpsLog : Bytes := [SampleLog.restart 40 16778248, zeros 4096,
  SampleLog.page ([SampleLog.header 16778248 16778248,
    SampleLog.record 16778248 0 0 32 0 1 (smallRecord 0x1D 1), SampleLog.record 16778258 0 0 32 0 1 (smallRecord 0x1E 1),
    SampleLog.record 16778268 0 0 32 0 1 (smallRecord 0x1D 2), SampleLog.record 16778278 0 0 32 0 1 (smallRecord 0x1E 2),
    SampleLog.record 16778288 0 0 32 0 1 (smallRecord 0x1D 3)].flatten)].flatten

/-- C78 is false as stated: after the dumps T1 N1 T2 N2 T3 (T: open attribute tables, N: names) the record
gets T2 and N1. -/
theorem C78_dumps_do_not_match : ∃ p g, Parser.init dumpsLog = .ok p ∧
    p.parseClient dumpsLog 10 ⟨4096, some true, 1⟩ [16778248, 16778258, 16778268, 16778278, 16778288] {} = some g ∧ g.err = none ∧
    logRecordsOf g.items = [smallRecord 0x1D 1, smallRecord 0x1E 1, smallRecord 0x1D 2, smallRecord 0x1E 2, smallRecord 0x1D 3] ∧
    (g.items[4]?).map (fun i => (i.oatDump, i.anDump)) = some (some (redoBytes (smallRecord 0x1D 2)), some (redoBytes (smallRecord 0x1E 1))) := by
  have h : (match Parser.init dumpsLog with
      | .ok p =>
        (match p.parseClient dumpsLog 10 ⟨4096, some true, 1⟩ [16778248, 16778258, 16778268, 16778278, 16778288] {} with
         | some g => decide (g.err = none ∧
            logRecordsOf g.items = [smallRecord 0x1D 1, smallRecord 0x1E 1, smallRecord 0x1D 2, smallRecord 0x1E 2, smallRecord 0x1D 3] ∧
            (g.items[4]?).map (fun i => (i.oatDump, i.anDump)) = some (some (redoBytes (smallRecord 0x1D 2)), some (redoBytes (smallRecord 0x1E 1))))
         | none => false)
      | .error _ => false) = true := by decide +kernel
  split at h
  · rename_i p hp
    split at h
    · rename_i g hg
      exact ⟨p, g, hp, hg, of_decide_eq_true h⟩
    · cases h
  · cases h

/-- An operation that opens the attribute 24 (an entry of 40 bytes with the reference 7, and the name "$"). -/
def openRecord : Bytes := [natLE 2 0x1C, natLE 2 0, natLE 2 32, natLE 2 40, natLE 2 72, natLE 2 2, natLE 2 24, zeros 18,
  zeros 16, natLE 8 7, zeros 16, [0x24, 0]].flatten

/-- The hypotheses of C77 are met by a log where a record follows one that opens an attribute. -/
def openLog : Bytes := [SampleLog.restart 40 16778248, zeros 4096,
  SampleLog.page ([SampleLog.header 16778248 16778248,
    SampleLog.record 16778248 0 0 74 0 1 openRecord, zeros 6, SampleLog.record 16778264 0 0 32 0 1 (smallRecord 7 0)].flatten)].flatten

theorem C77_example : ∃ p g, Parser.init openLog = .ok p ∧
    p.parseClient openLog 10 ⟨4096, some true, 1⟩ [16778248, 16778264] {} = some g ∧
    logRecordsOf g.items = [openRecord, smallRecord 7 0] ∧
    (g.items[1]?).map (fun i => lookup i.oat 24) = some (some (7, [0x24])) := by
  have h : (match Parser.init openLog with
      | .ok p =>
        (match p.parseClient openLog 10 ⟨4096, some true, 1⟩ [16778248, 16778264] {} with
         | some g => decide (logRecordsOf g.items = [openRecord, smallRecord 7 0] ∧
            (g.items[1]?).map (fun i => lookup i.oat 24) = some (some (7, [0x24])))
         | none => false)
      | .error _ => false) = true := by decide +kernel
  split at h
  · rename_i p hp
    split at h
    · rename_i g hg
      exact ⟨p, g, hp, hg, of_decide_eq_true h⟩
    · cases h
  · cases h

end Verif.Props
