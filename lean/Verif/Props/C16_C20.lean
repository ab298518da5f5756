/-
Properties C16-C20: looking up file records in a master file table by number and by path, and building
paths (dfir_ntfs/MFT.py:915-1279).  All of them are about a parser that has been created, with the first
pass, on an arbitrary file: `Parser.init file true = .ok p`.  The cases
that show that the hypotheses are met are in `C16_C20_Concrete`, because they take a while to check.
-/
import Verif.Proof.ParserPaths
namespace Verif.Props
open Verif.MFT Verif.Spec.Parser

/-- The exceptions of the master file table: the documented one and its subclasses. -/
def mftExceptions : List Exc :=
  [.MasterFileTableException, .FileRecordSegmentException, .FileRecordSegmentSignatureException,
   .AttributeException, .MappingPairsException]

theorem mem_mftExceptions {e : Exc} (h : isMftExc e = true) : e ∈ mftExceptions := by
  unfold mftExceptions
  cases e <;> first | (cases h; done) | simp

/-! ### C16: lookup by number -/

/-- C16: looking up a record by number (and, possibly, sequence number) gives exactly the file record
with that base segment, when that is how it is known; for the number of a child segment, it gives the
file record whose base segment is the one that the child segment names, provided that *its* sequence
number is as the reference in the child segment says (and that the sequence number of the child segment
is the expected one). -/
theorem C16_lookup_iff (file : Bytes) (p : Parser) (hp : Parser.init file true = .ok p) (n : Nat) (expected : Option Nat) (r : FileRecord) :
    p.getRecord n expected = .ok r ↔
      (∃ s, IsRecord file p.size n s r ∧ (expected = none ∨ expected = some s)) ∨
      (n < file.length / p.size ∧ ∃ f, segmentAt file p.size n = some f ∧ baseOf f ≠ 0 ∧
        (expected = none ∨ expected = some (knownSequence f)) ∧
        IsRecord file p.size (number (baseOf f)) (sequence (baseOf f)) r) := by
  obtain ⟨rfl, h⟩ := Parser.init_loaded hp
  exact getRecord_iff h

/-- C16, in short: when the sequence number is given, the segment with the given number is known by that
sequence number, and the record that is returned is either the one of this base segment, or the one of
the base segment that this child segment refers to, known by the sequence number of that reference. -/
theorem C16_sequence_number_honoured (file : Bytes) (p : Parser) (hp : Parser.init file true = .ok p) (n s : Nat) (r : FileRecord)
    (h : p.getRecord n (some s) = .ok r) :
    ∃ f, segmentAt file p.size n = some f ∧ knownSequence f = s ∧
      (baseOf f = 0 ∧ r.base = f ∨
       baseOf f ≠ 0 ∧ segmentAt file p.size (number (baseOf f)) = some r.base ∧ knownSequence r.base = sequence (baseOf f)) := by
  rcases (C16_lookup_iff file p hp n (some s) r).1 h with ⟨s', ⟨h1, h2, h3, -⟩, he⟩ | ⟨-, f, h1, h2, h3, h4⟩
  · rcases he with he | he
    · cases he
    · cases he; exact ⟨r.base, h1, h3, .inl ⟨h2, rfl⟩⟩
  · rcases h3 with he | he
    · cases he
    · cases he; exact ⟨f, h1, rfl, .inr ⟨h2, h4.1, h4.2.2.1⟩⟩

/-- C16: a record whose sequence number differs is never returned; the lookup ends with the exception
that callers are told to expect. -/
theorem C16_other_sequence_refused (file : Bytes) (p : Parser) (hp : Parser.init file true = .ok p) (n s : Nat) (f : FileRecordSegment)
    (hf : segmentAt file p.size n = some f) (hs : knownSequence f ≠ s) :
    ∃ e ∈ mftExceptions, p.getRecord n (some s) = .error e := by
  cases hg : p.getRecord n (some s) with
  | error e =>
    obtain ⟨rfl, h⟩ := Parser.init_loaded hp
    exact ⟨e, mem_mftExceptions (getRecord_error h hg), rfl⟩
  | ok r =>
    obtain ⟨g, h1, h2, -⟩ := C16_sequence_number_honoured file p hp n s r hg
    rw [hf] at h1
    cases h1
    exact absurd h2 hs

/-- C16: the sequence number of a record that is in use is the one in its header, and that of a deleted
record is the one before (zero is skipped: 65535 comes before 1 in the reuse of 0). -/
theorem C16_deleted_sequence (f : FileRecordSegment) :
    ((flagsOf f).testBit 0 = true → effectiveSequenceNumber f = sequenceOf f) ∧
    ((flagsOf f).testBit 0 = false → 2 ≤ sequenceOf f → effectiveSequenceNumber f + 1 = sequenceOf f) ∧
    ((flagsOf f).testBit 0 = false → sequenceOf f = 0 → effectiveSequenceNumber f = 65535) := by
  rw [effective_eq]
  unfold knownSequence
  refine ⟨fun h => by rw [if_pos h], fun h h2 => ?_, fun h h2 => ?_⟩
  · rw [if_neg (by simp [h]), if_neg (by omega), if_neg (by omega)]; omega
  · rw [if_neg (by simp [h]), if_pos h2]

/-! ### C17: loading records -/

/-- C17: for every table, looking up any number either returns a record or raises one of the exceptions
of the master file table (the function is total, so it always finishes). -/
theorem C17_lookup_total (file : Bytes) (p : Parser) (hp : Parser.init file true = .ok p) (n : Nat) (expected : Option Nat) :
    (∃ r, p.getRecord n expected = .ok r) ∨ ∃ e ∈ mftExceptions, p.getRecord n expected = .error e := by
  obtain ⟨-, h⟩ := Parser.init_loaded hp
  cases hg : p.getRecord n expected with
  | ok r => exact .inl ⟨r, rfl⟩
  | error e => exact .inr ⟨e, mem_mftExceptions (getRecord_error h hg), rfl⟩

/-- C17: the child segments of a record that is returned are those of a strictly increasing list of
segment numbers, all of them in the file (so each is loaded once, and there are no more of them than
segments); a segment is in the list exactly when it is valid and names the base segment, so the children
of children are not loaded. -/
theorem C17_children (file : Bytes) (p : Parser) (hp : Parser.init file true = .ok p) (n : Nat) (expected : Option Nat) (r : FileRecord)
    (h : p.getRecord n expected = .ok r) :
    ∃ (k ref : Nat) (ks : List Nat), segmentAt file p.size k = some r.base ∧ baseOf r.base = 0 ∧
      ref = ownReference r.base k ∧
      ks.Pairwise (· < ·) ∧ ks.length ≤ file.length / p.size ∧ r.children.map some = ks.map (segmentAt file p.size) ∧
      ∀ i, i ∈ ks ↔ i < file.length / p.size ∧ ∃ f, segmentAt file p.size i = some f ∧ baseOf f ≠ 0 ∧ baseOf f = ref := by
  have : ∃ k s, IsRecord file p.size k s r := by
    rcases (C16_lookup_iff file p hp n expected r).1 h with ⟨s, h1, -⟩ | ⟨-, f, -, -, -, h4⟩
    · exact ⟨n, s, h1⟩
    · exact ⟨_, _, h4⟩
  obtain ⟨k, s, h1, h2, h3, h4⟩ := this
  have hmem : ∀ i, i ∈ childrenOf file p.size (ownReference r.base k) ↔
      i < file.length / p.size ∧ ∃ f, segmentAt file p.size i = some f ∧ baseOf f ≠ 0 ∧ baseOf f = ownReference r.base k := by
    intro i
    unfold childrenOf
    rw [List.mem_filter, List.mem_range]
    cases segmentAt file p.size i with
    | none => simp
    | some f => simp
  refine ⟨k, _, childrenOf file p.size (ownReference r.base k), h1, h2, rfl, ?_, ?_, ?_, hmem⟩
  · unfold childrenOf
    exact List.Pairwise.sublist List.filter_sublist List.pairwise_lt_range
  · unfold childrenOf
    have := List.length_filter_le (fun k_1 => match segmentAt file p.size k_1 with
      | some f => baseOf f != 0 && baseOf f == ownReference r.base k
      | none => false) (List.range (file.length / p.size))
    rw [List.length_range] at this
    exact this
  · rw [h4]
    have : ∀ l : List Nat, (∀ i ∈ l, (segmentAt file p.size i).isSome) →
        (l.filterMap (segmentAt file p.size)).map some = l.map (segmentAt file p.size) := by
      intro l
      induction l with
      | nil => intro _; rfl
      | cons i l ih =>
        intro hl
        obtain ⟨f, hf⟩ := Option.isSome_iff_exists.1 (hl i (List.mem_cons_self ..))
        rw [List.filterMap_cons, hf, List.map_cons, List.map_cons, ih (fun j hj => hl j (List.mem_cons_of_mem _ hj)), hf]
    exact this _ (fun i hi => by obtain ⟨-, f, hf, -⟩ := (hmem i).1 hi; rw [hf]; rfl)

/-! ### C18: path building terminates -/

/-- C18: building the paths of a record never needs more steps than there are segments (plus one) per
name, whatever the parent references are: the bounded loop of the model, which gives up (`none`) when
the bound is reached, never does. -/
theorem C18_paths_terminate (file : Bytes) (p : Parser) (hp : Parser.init file true = .ok p) (r : FileRecord) :
    p.buildFullPaths r ≠ none := by
  obtain ⟨-, h⟩ := Parser.init_loaded hp
  unfold Parser.buildFullPaths
  cases orderNames r.attributes.err r.attributes.items [] with
  | error e => simp
  | ok vs => exact buildPaths_ends h vs

/-! ### C19: paths follow the parents -/

/-- Why a path begins as it does, when the climb through the directories `dirs` has got to the reference
`top`: with nothing (so that the path starts with the separator) when `top` is the root directory, with
the orphan marker when it has been seen on the way up, when there is no such record (any more), or when
it is not a directory.  (For a file directly in the root directory, only the number of the parent is
checked, and the record is not loaded.) -/
def StartsWith (file : Bytes) (size : Nat) (dirs : List Nat) (top : Nat) (start : Str) : Prop :=
  (start = [] ∧ number top = 5 ∧ (dirs ≠ [] → ∃ r, IsRecord file size (number top) (sequence top) r)) ∨
  (start = Str.ofString "<Orphan>" ∧
    (number top ∈ dirs ∨ (¬ ∃ r, IsRecord file size (number top) (sequence top) r) ∨
     (number top ≠ 5 ∧ ∃ r, IsRecord file size (number top) (sequence top) r ∧ (flagsOf r.base).testBit 1 = false)))

/-- C18/C19: every path that is built is for one of the file names of the record.  It is made of the
names of the directories along a chain of parent references, none of which is visited twice, and of the
file name, separated by `/`; and it starts with the separator exactly when the chain ends at the root
directory, and with the orphan marker otherwise. -/
theorem C19_path (file : Bytes) (p : Parser) (hp : Parser.init file true = .ok p) (r : FileRecord) (paths : List (Str × Bytes))
    (h : p.buildFullPaths r = some (.ok paths)) (path : Str) (v : Bytes) (hmem : (path, v) ∈ paths) :
    v ∈ fileNames r.attributes.items ∧
    ∃ dirs top start, Chain file p.size (parentOf v) dirs top ∧ (dirs.map (·.1)).Nodup ∧
      StartsWith file p.size (dirs.map (·.1)) top start ∧
      path = pyJoin (Str.ofString "/") (start :: (dirs.map fun d => nameOf d.2.2).reverse ++ [nameOf v]) ∧
      (path.head? = some 0x2F ↔ number top = 5 ∧ number top ∉ dirs.map (·.1) ∧
        (dirs ≠ [] → ∃ r, IsRecord file p.size (number top) (sequence top) r)) := by
  obtain ⟨rfl, hl⟩ := Parser.init_loaded hp
  unfold Parser.buildFullPaths at h
  cases ho : orderNames r.attributes.err r.attributes.items [] with
  | error e => rw [ho] at h; cases h
  | ok vs =>
    rw [ho] at h
    dsimp only at h
    obtain ⟨h1, h2⟩ := buildPaths_ok h
    obtain ⟨-, -, -, hvs⟩ := (orderNames_ok _ _ _ _).1 ho
    refine ⟨?_, ?_⟩
    · have : v ∈ vs := by rw [← h1]; exact List.mem_map.2 ⟨_, hmem, rfl⟩
      rw [hvs] at this
      simp only [List.append_nil, List.mem_append, List.mem_reverse, List.mem_filter] at this
      rcases this with h | h <;> exact h.1
    · obtain ⟨dirs, top, pre, c1, c2, c3, c4⟩ := buildPath_sound hl (h2 _ hmem)
      dsimp only at c1 c3
      have chain5 : ∀ {ref dirs top}, Chain p.file p.size ref dirs top → 5 ∉ dirs.map (·.1) := by
        intro ref dirs top hc
        induction hc with
        | here => simp
        | up hrec hroot _ _ _ _ ih => simp only [List.map_cons, List.mem_cons, not_or]; exact ⟨fun h => hroot h.symm, ih⟩
      have hstart : StartsWith p.file p.size (dirs.map (·.1)) top pre := by
        rcases c4 with ⟨d1, d2, d3⟩ | ⟨d1, d2⟩
        · exact .inl ⟨d3, d2, fun h => absurd (by rw [d1]; rfl) h⟩
        · rcases d2 with ⟨e1, e2, e3⟩ | d2
          · exact .inl ⟨e1, e2, fun _ => e3⟩
          · exact .inr d2
      refine ⟨dirs, top, pre, c1, c2, hstart, c3, ?_⟩
      have hhead : path.head? = some 0x2F ↔ pre = [] := by
        rw [c3]
        have hne : (dirs.map fun d => nameOf d.2.2).reverse ++ [nameOf v] ≠ [] := by simp
        rw [List.cons_append]
        cases hx : (dirs.map fun d => nameOf d.2.2).reverse ++ [nameOf v] with
        | nil => exact absurd hx hne
        | cons y ys =>
          show (pre ++ pathSeparator ++ pyJoin pathSeparator (y :: ys)).head? = some 0x2F ↔ pre = []
          rcases hstart with ⟨rfl, -⟩ | ⟨rfl, -⟩
          · exact ⟨fun _ => rfl, fun _ => rfl⟩
          · constructor
            · intro h
              have h : some 60 = some 0x2F := h
              cases h
            · intro h; exact absurd h (by decide)
      rw [hhead]
      constructor
      · intro hpre
        rcases hstart with ⟨e1, e2, e3⟩ | ⟨e1, -⟩
        · exact ⟨e2, e2 ▸ chain5 c1, fun h => e3 (by simpa using h)⟩
        · rw [hpre] at e1; exact absurd e1 (by decide)
      · rintro ⟨e1, e2, e3⟩
        rcases c4 with ⟨-, -, d3⟩ | ⟨d1, d2⟩
        · exact d3
        · have hd : dirs ≠ [] := fun h => d1 h e1
          rcases d2 with ⟨f1, -⟩ | ⟨-, f2 | f2 | ⟨f2, -⟩⟩
          · exact f1
          · exact absurd f2 e2
          · exact absurd (e3 hd) f2
          · exact absurd e1 f2

/-- C19: there is one path for each file name of the record: first those for the Win32 and POSIX names
(the last of them first), then those for the short names. -/
theorem C19_one_path_per_name (file : Bytes) (p : Parser) (r : FileRecord) (paths : List (Str × Bytes)) (_hp : Parser.init file true = .ok p)
    (h : p.buildFullPaths r = some (.ok paths)) :
    paths.map (·.2) = ((fileNames r.attributes.items).filter isPreferred).reverse ++
      (fileNames r.attributes.items).filter fun v => !isPreferred v := by
  unfold Parser.buildFullPaths at h
  cases ho : orderNames r.attributes.err r.attributes.items [] with
  | error e => rw [ho] at h; cases h
  | ok vs =>
    rw [ho] at h
    dsimp only at h
    obtain ⟨h1, -⟩ := buildPaths_ok h
    obtain ⟨-, -, -, hvs⟩ := (orderNames_ok _ _ _ _).1 ho
    rw [h1, hvs, List.append_nil]

/-- C19: the paths of a record whose own names can be read are all built, unless the climb comes to a
directory whose names cannot be read (there are none, one of them is damaged, or the attributes are). -/
theorem C19_failure (file : Bytes) (p : Parser) (hp : Parser.init file true = .ok p) (r : FileRecord) (hr : Readable r) (e : Exc)
    (h : p.buildFullPaths r = some (.error e)) :
    ∃ v ∈ fileNames r.attributes.items, ∃ dirs top d, Chain file p.size (parentOf v) dirs top ∧
      IsRecord file p.size (number top) (sequence top) d ∧ (flagsOf d.base).testBit 1 = true ∧
      ¬ (Readable d ∧ fileNames d.attributes.items ≠ []) := by
  obtain ⟨rfl, hl⟩ := Parser.init_loaded hp
  unfold Parser.buildFullPaths at h
  rw [(orderNames_ok _ _ _ _).2 ⟨hr.1, hr.2.1, hr.2.2, rfl⟩] at h
  dsimp only at h
  obtain ⟨v, hv, hb⟩ := buildPaths_error h
  have hv' : v ∈ fileNames r.attributes.items := by
    simp only [List.append_nil, List.mem_append, List.mem_reverse, List.mem_filter] at hv
    rcases hv with h | h <;> exact h.1
  obtain ⟨dirs, top, d, c1, c2, c3, c4⟩ := buildPath_error hl (hr.2.2 v hv') hb
  refine ⟨v, hv', dirs, top, d, c1, c2, c4, ?_⟩
  rintro ⟨g1, g2⟩
  have : ∃ w, directoryName d = some w := by
    unfold directoryName
    split
    · exact ⟨_, rfl⟩
    · cases hf : fileNames d.attributes.items with
      | nil => exact absurd hf g2
      | cons w l => exact ⟨w, rfl⟩
  obtain ⟨w, hw⟩ := this
  rw [preferredFileName_ok.2 ⟨g1, w, hw, rfl⟩] at c3
  cases c3

/-! ### C20: lookup by path -/

/-- How names are compared: exactly, or after they have been converted to upper case (by a function
about which nothing is assumed). -/
def sameName (upper : Str → Str) (caseSensitive : Bool) (a b : Str) : Bool :=
  if caseSensitive then a == b else upper a == upper b

/-- The path without the separator that may follow the name of a directory. -/
def withoutTrailing (path : Str) : Str :=
  if 1 < path.length ∧ path.getLast? = some 0x2F then path.dropLast else path

/-- The components of a path: the parts between the separators. -/
def IsSplit (path : Str) (parts : List Str) : Prop := pyJoin (Str.ofString "/") parts = path ∧ ∀ x ∈ parts, 0x2F ∉ x

theorem byPath_unfold {upper : Str → Str} {p : Parser} {path : Str} {cs : Bool} {o : Option FileRecord}
    (h : p.getRecordByPath upper path cs = .ok o) :
    path.head? = some 0x2F ∧
    ((withoutTrailing path = Str.ofString "/" ∧ ∃ r, o = some r ∧ p.getRecord 5 = .ok r) ∨
     (withoutTrailing path ≠ Str.ofString "/" ∧ ∃ last middle cands, splitPath (withoutTrailing path) = [] :: middle ++ [last] ∧
      [] ∉ middle ∧ Str.ofString "." ∉ middle ∧ Str.ofString ".." ∉ middle ∧
      candidatesLoop p (sameName upper cs) last (decide (1 < path.length ∧ path.getLast? = some 0x2F)) 0 = .ok cands ∧
      firstMatch p (sameName upper cs) middle.reverse cands = .ok o)) := by
  unfold Parser.getRecordByPath at h
  obtain ⟨h0, h⟩ := of_ite_error h
  obtain ⟨h1, h⟩ := of_ite_error h
  have hhead : path.head? = some 0x2F := by
    apply Decidable.byContradiction; intro hc; exact h1 (.inl hc)
  have hne2 : path ≠ Str.ofString "//" := fun hc => h1 (.inr hc)
  refine ⟨hhead, ?_⟩
  dsimp only at h
  have hw : (if decide (path.length > 1 ∧ path.getLast? = some 0x2F) = true then path.dropLast else path) = withoutTrailing path := by
    unfold withoutTrailing
    simp only [decide_eq_true_eq, gt_iff_lt]
  rw [hw] at h
  by_cases hroot : withoutTrailing path = Str.ofString "/"
  · rw [if_pos hroot] at h
    left
    refine ⟨hroot, ?_⟩
    cases hg : p.getRecord fileNumberRoot with
    | error e => rw [hg] at h; cases h
    | ok r => rw [hg] at h; cases h; exact ⟨r, rfl, hg⟩
  · rw [if_neg hroot] at h
    right
    refine ⟨hroot, ?_⟩
    -- the shape of the list of components
    have hwhead : (withoutTrailing path).head? = some 0x2F := by
      unfold withoutTrailing
      split
      · next hc =>
        cases path with
        | nil => cases hhead
        | cons c rest =>
          cases rest with
          | nil => simp at hc
          | cons d rest => simpa using hhead
      · exact hhead
    have hshape : ∃ last middle, splitPath (withoutTrailing path) = [] :: middle ++ [last] := by
      cases hx : withoutTrailing path with
      | nil => rw [hx] at hwhead; cases hwhead
      | cons c rest =>
        rw [hx] at hwhead
        cases hwhead
        unfold splitPath
        rw [if_pos rfl]
        have hne := splitPath_ne_nil rest
        refine ⟨(splitPath rest).getLast hne, (splitPath rest).dropLast, ?_⟩
        rw [List.cons_append, List.dropLast_concat_getLast hne]
    obtain ⟨last, middle, hs⟩ := hshape
    rw [hs] at h
    have e1 : (([] :: middle ++ [last] : List Str).getLast?.getD []) = last := by rw [List.getLast?_concat]; rfl
    have e2 : (([] :: middle ++ [last] : List Str).drop 1).dropLast.reverse = middle.reverse := by
      rw [List.cons_append, List.drop_succ_cons, List.drop_zero, List.dropLast_concat]
    rw [e1, e2] at h
    cases hc : candidatesLoop p (sameName upper cs) last (decide (1 < path.length ∧ path.getLast? = some 0x2F)) 0 with
    | error e =>
      have hc' : candidatesLoop p (namesEqual upper cs) last (decide (path.length > 1 ∧ path.getLast? = some 0x2F)) 0 = .error e := hc
      rw [hc'] at h; cases h
    | ok cands =>
      have hc' : candidatesLoop p (namesEqual upper cs) last (decide (path.length > 1 ∧ path.getLast? = some 0x2F)) 0 = .ok cands := hc
      rw [hc'] at h
      dsimp only at h
      obtain ⟨h2, h⟩ := of_ite_error h
      simp only [List.mem_reverse, not_or] at h2
      exact ⟨last, middle, cands, hs, h2.1, h2.2.1, h2.2.2, hc, h⟩

/-- C20 (partial): a record that is found by a path is the root directory, for the path `/`, or a record
in use in the table with a file name equal to the last component, from whose parent a chain of records
with names equal to the other components leads up to the root directory; and if the path ends with a
separator, the record is a directory.  Only part of the property: it does not say that the records
between the root directory and the one found are in use, because that is false
(`C20_deleted_directory_found`). -/
theorem C20_found_by_path_partial (file : Bytes) (p : Parser) (hp : Parser.init file true = .ok p) (upper : Str → Str) (path : Str) (cs : Bool)
    (r : FileRecord) (h : p.getRecordByPath upper path cs = .ok (some r)) :
    path.head? = some 0x2F ∧
    ((withoutTrailing path = Str.ofString "/" ∧ p.getRecord 5 = .ok r) ∨
     ∃ parts last k s v, IsSplit (withoutTrailing path) ([] :: parts ++ [last]) ∧
      k * p.size < file.length ∧ IsRecord file p.size k s r ∧ (flagsOf r.base).testBit 0 = true ∧
      (1 < path.length ∧ path.getLast? = some 0x2F → (flagsOf r.base).testBit 1 = true) ∧
      v ∈ fileNames r.attributes.items ∧ sameName upper cs (nameOf v) last = true ∧
      MatchesUp file p.size (sameName upper cs) (parentOf v) parts.reverse) := by
  obtain ⟨rfl, hl⟩ := Parser.init_loaded hp
  obtain ⟨h1, h2⟩ := byPath_unfold h
  refine ⟨h1, ?_⟩
  rcases h2 with ⟨h2, r', h3, h4⟩ | ⟨-, last, middle, cands, h2, -, -, -, hc, hf⟩
  · cases h3; exact .inl ⟨h2, h4⟩
  · right
    obtain ⟨ref, hm, hup⟩ := firstMatch_some hl hf
    obtain ⟨k, s, v, -, k2, k3, k4, k5, k6, k7⟩ := (candidatesLoop_ok hl _ _ _ _ _ hc (ref, r)).1 hm
    dsimp only at k3 k4 k5 k6 k7
    subst k7
    refine ⟨middle, last, k, s, v, ⟨?_, ?_⟩, k2, k3, ?_, ?_, List.mem_of_find?_eq_some k6, ?_, hup⟩
    · rw [← h2]; exact pyJoin_splitPath _
    · rw [← h2]; exact splitPath_no_sep _
    · rw [← inUse_iff]; exact k4
    · intro ht; rw [← isDirectory_eq]; exact k5 (by simpa using ht)
    · have := List.find?_some k6; exact this

/-- C20: when nothing is found (and no exception is raised), there is no record in use for which the
names match all the way up to the root directory, going in every record by the first name that matches. -/
theorem C20_not_found (file : Bytes) (p : Parser) (hp : Parser.init file true = .ok p) (upper : Str → Str) (path : Str) (cs : Bool)
    (h : p.getRecordByPath upper path cs = .ok none) (parts : List Str) (last : Str)
    (hsplit : splitPath (withoutTrailing path) = [] :: parts ++ [last])
    (k s : Nat) (r : FileRecord) (v : Bytes) (hk : k * p.size < file.length) (hr : IsRecord file p.size k s r)
    (huse : (flagsOf r.base).testBit 0 = true)
    (hdir : 1 < path.length ∧ path.getLast? = some 0x2F → (flagsOf r.base).testBit 1 = true)
    (hname : FirstMatch (sameName upper cs) r last v) :
    ¬ MatchesUp file p.size (sameName upper cs) (parentOf v) parts.reverse := by
  obtain ⟨rfl, hl⟩ := Parser.init_loaded hp
  obtain ⟨-, h2⟩ := byPath_unfold h
  rcases h2 with ⟨-, r', h3, -⟩ | ⟨-, last', middle, cands, h2, -, -, -, hc, hf⟩
  · cases h3
  · rw [h2] at hsplit
    have e1 : middle = parts := by simpa using congrArg (fun l => (l.drop 1).dropLast) hsplit
    have e2 : last' = last := by
      have := congrArg List.getLast? hsplit
      rw [List.getLast?_concat, List.getLast?_concat] at this
      cases this; rfl
    subst e1; subst e2
    have := firstMatch_none hl hf (parentOf v, r) ((candidatesLoop_ok hl _ _ _ _ _ hc _).2
      ⟨k, s, v, Nat.zero_le _, hk, hr, by rw [inUse_iff]; exact huse, by
        intro hd; rw [isDirectory_eq]; exact hdir (by simpa using hd), hname, rfl⟩)
    exact this

end Verif.Props
