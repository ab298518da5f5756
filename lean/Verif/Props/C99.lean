/-
Property C99: the table of directory indexes that `ntfs_parser --indx` writes.
-/
import Verif.Props.C98
import Verif.Props.C94_C96
import Verif.Props.C12_C15
import Verif.Spec.IndexTable
namespace Verif.Props
open Verif.MFT Verif.Attributes Verif.Spec.Parser Verif.Scripts Verif.Spec.MftTable Verif.Spec.IndexTable

/-! ### Rows -/

theorem sequenceNumber_eq (f : FileRecordSegment) : f.sequenceNumber = sequenceOf f := rfl

/-- The number of a file record. -/
theorem hasNumber_iff {file : Bytes} {size : Nat} {r : FileRecord} {k : Nat} (hk : segmentAt file size k = some r.base) :
    ∃ n, HasNumber file size r n ∧ r.base.masterFileTableNumber = some n :=
  ⟨_, ⟨k, hk, rfl⟩, mftNumber_eq (segmentAt_suggested hk)⟩

theorem indexDirectory_of_ok {file : Bytes} {p : MFT.Parser} (hp : Parser.init file true = .ok p) {r : FileRecord} {n : Nat}
    (hn : r.base.masterFileTableNumber = some n) {paths : List (Str × Bytes)} {v : Bytes} {o : Option Str} (h : indexDirectory p r paths v = .ok o) :
    o = directoryOf p (n, sequenceOf r.base) paths v := by
  unfold indexDirectory at h
  cases h1 : fileNameParent v with
  | error e => rw [h1] at h; cases h
  | ok parent =>
    rw [h1, hn] at h
    dsimp only at h
    unfold directoryOf
    rw [show parent = parentOf v from (unpack_of_ok h1).2, sequenceNumber_eq] at h
    dsimp only
    by_cases hpar : parentOf v = encodeFileRecordSegmentReference n (sequenceOf r.base)
    · rw [if_neg (fun hx => hx hpar)] at h
      rw [if_pos hpar]
      cases h; rfl
    · rw [if_pos hpar] at h
      rw [if_neg hpar]
      exact lookupPath_eq hp _ _ _ h

theorem indexNameRow_of_none {file : Bytes} {p : MFT.Parser} (hp : Parser.init file true = .ok p) {r : FileRecord} {n : Nat}
    (hn : r.base.masterFileTableNumber = some n) {paths : List (Str × Bytes)} {source : String} {reference : Except Exc Cell} {v : Bytes}
    (h : (indexNameRow p r paths source reference v).err = none) :
    ∃ ref, reference = .ok ref ∧ (indexNameRow p r paths source reference v).items = [nameRow p (n, sequenceOf r.base) paths source ref v] := by
  unfold indexNameRow at h ⊢
  obtain ⟨directory, h1, h⟩ := (andThen_err _ _).1 h
  obtain ⟨name, h2, h⟩ := (andThen_err _ _).1 h
  obtain ⟨ref, h3, h⟩ := (andThen_err _ _).1 h
  obtain ⟨dir, h4, h⟩ := (andThen_err _ _).1 h
  obtain ⟨fn, h5, h⟩ := (andThen_err _ _).1 h
  obtain ⟨size, h6, h⟩ := (andThen_err _ _).1 h
  refine ⟨ref, h3, ?_⟩
  rw [h1, andThen_ok, h2, andThen_ok, h3, andThen_ok, h4, andThen_ok, h5, andThen_ok, h6, andThen_ok]
  rw [indexDirectory_of_ok hp hn h1, isDirectory_of_ok h4, fileNameTimes_of_ok h5, size_of_ok h6, name_of_ok h2, pathIn_eq]
  rfl

theorem indexEntryRows_of_none {file : Bytes} {p : MFT.Parser} (hp : Parser.init file true = .ok p) {r : FileRecord} {n : Nat}
    (hn : r.base.masterFileTableNumber = some n) {paths : List (Str × Bytes)} {e : IndexEntry} (h : (indexEntryRows p r paths e).err = none) :
    (indexEntryRows p r paths e).items = (entryRow p (n, sequenceOf r.base) paths e).toList := by
  unfold indexEntryRows at h ⊢
  obtain ⟨a, ha, h⟩ := (andThen_err _ _).1 h
  rw [ha, andThen_ok]
  unfold entryRow
  rw [← entryName_of_ok ha]
  cases a with
  | none => rfl
  | some v =>
    dsimp only at h ⊢
    by_cases hv : v.length ≤ 66
    · rw [if_pos hv, if_neg (by omega)]; rfl
    · rw [if_neg hv] at h
      rw [if_neg hv, if_pos (by omega)]
      obtain ⟨ref, h1, h2⟩ := indexNameRow_of_none hp hn h
      rw [h2]
      unfold IndexEntry.fileReference at h1
      cases h3 : unpackLE 8 (slice e.raw 0 8) with
      | error x => rw [h3] at h1; cases h1
      | ok x =>
        rw [h3] at h1
        cases h1
        rw [(unpack_of_ok h3).2]
        rfl

theorem indexSlackRows_of_none {file : Bytes} {p : MFT.Parser} (hp : Parser.init file true = .ok p) {r : FileRecord} {n : Nat}
    (hn : r.base.masterFileTableNumber = some n) {paths : List (Str × Bytes)} {c : Carved} (h : (indexSlackRows p r paths c).err = none) :
    (indexSlackRows p r paths c).items = (remnantRow p (n, sequenceOf r.base) paths c).toList := by
  cases c with
  | partialName s => rfl
  | fileName v =>
    unfold indexSlackRows at h ⊢
    dsimp only at h ⊢
    obtain ⟨ref, h1, h2⟩ := indexNameRow_of_none hp hn h
    cases h1
    rw [h2]
    rfl

theorem indexEntryRows_yields {file : Bytes} {p : MFT.Parser} (hp : Parser.init file true = .ok p) {r : FileRecord} {n : Nat}
    (hn : r.base.masterFileTableNumber = some n) {paths : List (Str × Bytes)} {e : IndexEntry} :
    Yields (indexEntryRows p r paths e) (entryRow p (n, sequenceOf r.base) paths e).toList := by
  refine .of_none (indexEntryRows_of_none hp hn) ?_
  refine Single.andThen fun a => ?_
  cases a with
  | none => exact .none
  | some v =>
    dsimp only
    split
    · exact .none
    · exact .andThen fun _ => .andThen fun _ => .andThen fun _ => .andThen fun _ => .andThen fun _ => .andThen fun _ => .one

theorem indexSlackRows_yields {file : Bytes} {p : MFT.Parser} (hp : Parser.init file true = .ok p) {r : FileRecord} {n : Nat}
    (hn : r.base.masterFileTableNumber = some n) {paths : List (Str × Bytes)} {c : Carved} :
    Yields (indexSlackRows p r paths c) (remnantRow p (n, sequenceOf r.base) paths c).toList := by
  refine .of_none (indexSlackRows_of_none hp hn) ?_
  cases c with
  | fileName v => exact Single.andThen fun _ => .andThen fun _ => .andThen fun _ => .andThen fun _ => .andThen fun _ => .andThen fun _ => .one
  | partialName s => exact Single.none

/-! ### The buffers of an index allocation -/

/-- Nothing is read at the end of a fragmented file or after it. -/
theorem readAt_end (f : FragmentedFile) (pos n : Nat) (h : f.fileSize ≤ pos) : f.readAt pos n = .ok [] := by
  unfold FragmentedFile.readAt FragmentedFile.read FragmentedFile.readSize
  rw [if_pos (.inr h)]

theorem allocationBufferSize_none {f : FragmentedFile} : allocationBufferSize f = .ok none ↔ NoBuffers f := by
  unfold allocationBufferSize NoBuffers
  cases h1 : f.readAt 4 4 with
  | error e => exact ⟨(fun h => by cases h), fun ⟨raw, h, _⟩ => by rw [show f.readAt 4 4 = .ok raw from h] at h1; cases h1⟩
  | ok raw =>
    have hex : ∀ P : Bytes → Prop, (∃ r, bytesAt f 4 4 = .ok r ∧ P r) ↔ P raw := by
      intro P
      refine ⟨fun ⟨r, h, hP⟩ => ?_, fun hP => ⟨raw, h1, hP⟩⟩
      rw [show f.readAt 4 4 = .ok r from h] at h1
      cases h1; exact hP
    rw [hex]
    dsimp only
    by_cases c1 : raw.length = 4
    case neg => rw [if_pos c1]; exact ⟨fun _ h => absurd h c1, fun _ => rfl⟩
    rw [if_neg (fun h => h c1)]
    have hu : u16 raw 2 = leNat (slice raw 2 4) := rfl
    rw [hu]
    by_cases c2 : leNat (slice raw 2 4) < 3
    · rw [if_pos c2]; exact ⟨fun _ _ n hn h => by omega, fun _ => rfl⟩
    rw [if_neg c2]
    by_cases c3 : ¬ ((leNat (slice raw 2 4) - 1) * 512 > 0 ∧ (leNat (slice raw 2 4) - 1) * 512 % 512 = 0 ∧ (leNat (slice raw 2 4) - 1) * 512 ≤ 119808)
    · rw [if_pos c3]; exact ⟨fun _ _ n hn h h' => by omega, fun _ => rfl⟩
    rw [if_neg c3]
    have hall : ∀ P : Nat → Prop, (raw.length = 4 → ∀ size, size = (leNat (slice raw 2 4) - 1) * 512 → 1024 ≤ size → size ≤ 119808 → P size) ↔
        P ((leNat (slice raw 2 4) - 1) * 512) := by
      intro P
      refine ⟨fun h => h c1 _ rfl (by omega) (by omega), fun h _ n hn _ _ => by rw [hn]; exact h⟩
    rw [hall]
    cases h2 : f.readAt 0 ((leNat (slice raw 2 4) - 1) * 512) with
    | error e => exact ⟨(fun h => by cases h), fun ⟨b, h, _⟩ => by rw [show f.readAt 0 _ = .ok b from h] at h2; cases h2⟩
    | ok buf =>
      have hex : ∀ P : Bytes → Prop, (∃ r, bytesAt f 0 ((leNat (slice raw 2 4) - 1) * 512) = .ok r ∧ P r) ↔ P buf := by
        intro P
        refine ⟨fun ⟨r, h, hP⟩ => ?_, fun hP => ⟨buf, h2, hP⟩⟩
        rw [show f.readAt 0 _ = .ok r from h] at h2
        cases h2; exact hP
      rw [hex]
      dsimp only
      by_cases c4 : buf.length = (leNat (slice raw 2 4) - 1) * 512
      case neg => rw [if_pos c4]; exact ⟨fun _ h => absurd h c4, fun _ => rfl⟩
      rw [if_neg (fun h => h c4)]
      cases verifyAndUnprotectIndexSectors buf with
      | error e => exact ⟨(fun h => by cases h), fun h => by cases h c4⟩
      | ok o =>
        cases o with
        | none => exact ⟨fun _ _ => rfl, fun _ => rfl⟩
        | some b => exact ⟨(fun h => by cases h), fun h => by cases h c4⟩

theorem allocationBufferSize_some {f : FragmentedFile} {size : Nat} : allocationBufferSize f = .ok (some size) ↔ HasBuffers f size := by
  constructor
  · intro h
    unfold allocationBufferSize at h
    cases h1 : f.readAt 4 4 with
    | error e => rw [h1] at h; cases h
    | ok raw =>
      rw [h1] at h
      dsimp only at h
      by_cases c1 : raw.length = 4
      case neg => rw [if_pos c1] at h; cases h
      rw [if_neg (fun h => h c1)] at h
      rw [show u16 raw 2 = leNat (slice raw 2 4) from rfl] at h
      by_cases c2 : leNat (slice raw 2 4) < 3
      · rw [if_pos c2] at h; cases h
      rw [if_neg c2] at h
      by_cases c3 : ¬ ((leNat (slice raw 2 4) - 1) * 512 > 0 ∧ (leNat (slice raw 2 4) - 1) * 512 % 512 = 0 ∧ (leNat (slice raw 2 4) - 1) * 512 ≤ 119808)
      · rw [if_pos c3] at h; cases h
      rw [if_neg c3] at h
      cases h2 : f.readAt 0 ((leNat (slice raw 2 4) - 1) * 512) with
      | error e => rw [h2] at h; cases h
      | ok buf =>
        rw [h2] at h
        dsimp only at h
        by_cases c4 : buf.length = (leNat (slice raw 2 4) - 1) * 512
        case neg => rw [if_pos c4] at h; cases h
        rw [if_neg (fun h => h c4)] at h
        cases h3 : verifyAndUnprotectIndexSectors buf with
        | error e => rw [h3] at h; cases h
        | ok o =>
          rw [h3] at h
          cases o with
          | none => cases h
          | some b =>
            cases h
            exact ⟨⟨raw, h1, c1, rfl⟩, by omega, ⟨buf, b, h2, c4, h3⟩⟩
  · rintro ⟨⟨raw, h1, c1, hs⟩, ⟨h4, h5⟩, ⟨buf, b, h2, c4, h3⟩⟩
    unfold allocationBufferSize
    rw [show f.readAt 4 4 = .ok raw from h1]
    dsimp only
    rw [if_neg (fun h => h c1), show u16 raw 2 = leNat (slice raw 2 4) from rfl, if_neg (by omega), if_neg (by omega), ← hs,
      show f.readAt 0 size = .ok buf from h2]
    dsimp only
    rw [if_neg (fun h => h c4), h3]

theorem allocationBuffersLoop_from {f : FragmentedFile} {size : Nat} (hs : 0 < size) {i : Nat} {bs : List Bytes} (h : BuffersFrom f size i bs) :
    allocationBuffersLoop f size i = ⟨bs, none⟩ := by
  have hin : ∀ i raw, bytesAt f (i * size) size = .ok raw → raw.length = size → ¬ f.fileSize ≤ i * size := by
    intro i raw h1 h2 h3
    rw [show bytesAt f (i * size) size = f.readAt (i * size) size from rfl, readAt_end f _ _ h3] at h1
    cases h1
    rw [List.length_nil] at h2
    omega
  induction h with
  | last i raw h1 h2 =>
    rw [allocationBuffersLoop, show f.readAt (i * size) size = .ok raw from h1]
    dsimp only
    rw [if_pos (.inl h2)]
    rfl
  | valid i raw b bs h1 h2 h3 h4 ih =>
    rw [allocationBuffersLoop, show f.readAt (i * size) size = .ok raw from h1]
    dsimp only
    rw [if_neg (by omega), if_neg (hin i raw h1 h2), h3, ih]
    rfl
  | invalid i raw bs h1 h2 h3 h4 ih =>
    rw [allocationBuffersLoop, show f.readAt (i * size) size = .ok raw from h1]
    dsimp only
    rw [if_neg (by omega), if_neg (hin i raw h1 h2), h3]
    exact ih

theorem allocationBuffersLoop_some {f : FragmentedFile} {size : Nat} (hs : 0 < size) (i : Nat) :
    SomeBuffersFrom f size i (allocationBuffersLoop f size i).items ∧
    ((allocationBuffersLoop f size i).err = none → BuffersFrom f size i (allocationBuffersLoop f size i).items) := by
  fun_induction allocationBuffersLoop f size i with
  | case1 i e h => exact ⟨.stop i, (fun h => by cases h)⟩
  | case2 i raw h1 h2 => exact ⟨.stop i, fun _ => .last i raw h1 (by omega)⟩
  | case3 i raw h1 h2 h3 =>
    exfalso
    rw [readAt_end f _ _ h3] at h1
    cases h1
    rw [List.length_nil] at h2
    omega
  | case4 i raw h1 h2 h3 e h4 => exact ⟨.stop i, (fun h => by cases h)⟩
  | case5 i raw h1 h2 h3 h4 ih => exact ⟨.invalid i raw _ h1 (by omega) h4 ih.1, fun h => .invalid i raw _ h1 (by omega) h4 (ih.2 h)⟩
  | case6 i raw h1 h2 h3 b h4 ih => exact ⟨.valid i raw b _ h1 (by omega) h4 ih.1, fun h => .valid i raw b _ h1 (by omega) h4 (ih.2 h)⟩

/-- The buffers that are yielded are valid ones, from the first one on; and all of them, unless there is an exception. -/
theorem allocationBuffers_some (f : FragmentedFile) : IsSomeBuffers f (allocationBuffers f).items ∧
    ((allocationBuffers f).err = none → IsBuffers f (allocationBuffers f).items) := by
  unfold allocationBuffers
  cases h : allocationBufferSize f with
  | error e => exact ⟨.inr rfl, (fun h => by cases h)⟩
  | ok o =>
    cases o with
    | none => exact ⟨.inr rfl, fun _ => .inr ⟨allocationBufferSize_none.1 h, rfl⟩⟩
    | some size =>
      have hb := allocationBufferSize_some.1 h
      have := hb.range
      have := allocationBuffersLoop_some (f := f) (size := size) (by omega) 0
      exact ⟨.inl ⟨size, hb, this.1⟩, fun h => .inl ⟨size, hb, this.2 h⟩⟩

theorem allocationBuffers_of {f : FragmentedFile} {bs : List Bytes} (h : IsBuffers f bs) : allocationBuffers f = ⟨bs, none⟩ := by
  unfold allocationBuffers
  rcases h with ⟨size, h1, h2⟩ | ⟨h1, rfl⟩
  · have := h1.range
    rw [allocationBufferSize_some.2 h1]
    exact allocationBuffersLoop_from (by omega) h2
  · rw [allocationBufferSize_none.2 h1]; rfl

theorem someBuffers_length {f : FragmentedFile} {size i : Nat} {bs : List Bytes} (h : BuffersFrom f size i bs) : ∀ b ∈ bs, 32 ≤ b.length := by
  induction h with
  | last i raw h1 h2 => intro b hb; cases hb
  | valid i raw b bs h1 h2 h3 h4 ih =>
    intro b' hb
    rcases List.mem_cons.1 hb with rfl | hb
    · obtain ⟨hs, -, -, h3, -⟩ := C25_restored _ _ h3
      have := hs.1
      omega
    · exact ih b' hb
  | invalid i raw bs h1 h2 h3 h4 ih => exact ih

theorem allocationSlack_of {f : FragmentedFile} {bs : List Bytes} (h : IsBuffers f bs) : allocationSlack f = .ok (unused bs) := by
  unfold allocationSlack
  rw [allocationBuffers_of h]
  dsimp only
  rw [slackOfBuffers_eq bs]
  · rfl
  · rcases h with ⟨size, h1, h2⟩ | ⟨h1, rfl⟩
    · exact someBuffers_length h2
    · intro b hb; cases hb

theorem entriesRows_yields {file : Bytes} {p : MFT.Parser} (hp : Parser.init file true = .ok p) {r : FileRecord} {n : Nat}
    (hn : r.base.masterFileTableNumber = some n) {paths : List (Str × Bytes)} {f : FragmentedFile} :
    Yields (forGen (fun b => forGen (indexEntryRows p r paths) (indexBufferEntries b)) (allocationBuffers f))
      (entriesBlock p (n, sequenceOf r.base) paths (allocationBuffers f).items) := by
  unfold entriesBlock
  refine .forGen fun b _ => ?_
  rw [← toList_flatMap]
  exact .forGen fun e _ => indexEntryRows_yields hp hn

theorem streamRows_yields {file : Bytes} {p : MFT.Parser} (hp : Parser.init file true = .ok p) {r : FileRecord} {n : Nat}
    (hn : r.base.masterFileTableNumber = some n) {paths : List (Str × Bytes)} {f : FragmentedFile} {bs : List Bytes} (hb : IsBuffers f bs) :
    Yields (streamRows p r paths f) (streamBlock p (n, sequenceOf r.base) paths bs) := by
  unfold streamRows streamBlock
  have h1 := entriesRows_yields hp hn (paths := paths) (f := f)
  have h2 : (allocationBuffers f).items = bs := by rw [allocationBuffers_of hb]
  rw [h2] at h1
  refine .append h1 fun _ => ?_
  rw [allocationSlack_of hb, andThen_ok, ← toList_flatMap]
  exact .forEach fun c _ => indexSlackRows_yields hp hn

theorem indexStream_iff (m : MergedAttribute) (runs : List Run) (size : Int) : indexStream m = some (runs, size) ↔ IsIndex m runs size := by
  cases m with
  | stored a =>
    cases a with
    | resident t nm v => simp [indexStream, IsIndex]
    | nonresident t nm mp lo hi sz rs =>
      rw [show indexStream (.stored (.nonresident t nm mp lo hi sz rs)) =
        if nm.map utf16Decode = some (Str.ofString "$I30") ∧ t = 0xA0 then some (rs, sz) else none from rfl]
      unfold IsIndex
      constructor
      · intro h
        by_cases hc : nm.map utf16Decode = some (Str.ofString "$I30") ∧ t = 0xA0
        · rw [if_pos hc] at h
          cases h
          obtain ⟨c1, rfl⟩ := hc
          cases nm with
          | none => cases c1
          | some nm => exact .inl ⟨nm, mp, lo, hi, rfl, Option.some.inj c1⟩
        · rw [if_neg hc] at h; cases h
      · rintro (⟨nm', mp', lo', hi', h, hn⟩ | ⟨hi', h⟩)
        · cases h
          rw [if_pos ⟨congrArg some hn, rfl⟩]
        · cases h
  | merged t nm hi sz rs =>
    rw [show indexStream (.merged t nm hi sz rs) = if nm = some (Str.ofString "$I30") ∧ t = 0xA0 then some (rs, sz) else none from rfl]
    unfold IsIndex
    constructor
    · intro h
      by_cases hc : nm = some (Str.ofString "$I30") ∧ t = 0xA0
      · rw [if_pos hc] at h
        cases h
        obtain ⟨rfl, rfl⟩ := hc
        exact .inr ⟨hi, rfl⟩
      · rw [if_neg hc] at h; cases h
    · rintro (⟨nm', mp', lo', hi', h, hn⟩ | ⟨hi', h⟩)
      · cases h
      · cases h
        rw [if_pos ⟨rfl, rfl⟩]

theorem append_stop {β : Type} {a b : Gen β} (h : a.err ≠ none) : a.append b = a := by
  unfold Gen.append
  cases a with
  | mk items err =>
    cases err with
    | none => exact absurd rfl h
    | some e => rfl

theorem attributeRows_yields {volume : Bytes} {off cs : Nat} {file : Bytes} {p : MFT.Parser} (hp : Parser.init file true = .ok p) {r : FileRecord} {n : Nat}
    (hn : r.base.masterFileTableNumber = some n) {paths : List (Str × Bytes)} : ∀ (ms : List MergedAttribute),
    SomeAttributeRows volume off cs p (n, sequenceOf r.base) paths ms (forEach (indexAttributeRows volume off cs p r paths) ms).items ∧
    ((forEach (indexAttributeRows volume off cs p r paths) ms).err = none →
      AttributeRows volume off cs p (n, sequenceOf r.base) paths ms (forEach (indexAttributeRows volume off cs p r paths) ms).items)
  | [] => ⟨.stop [], fun _ => .done⟩
  | m :: ms => by
    rw [forEach]
    obtain ⟨ih1, ih2⟩ := attributeRows_yields hp hn (volume := volume) (off := off) (cs := cs) (paths := paths) ms
    rw [show indexAttributeRows volume off cs p r paths m = (match indexStream m with
      | none => .done
      | some (runs, size) => streamRows p r paths ⟨volume, off, cs, runs, size.toNat⟩) from rfl]
    cases hi : indexStream m with
    | none =>
      have hno : ∀ runs size, ¬ IsIndex m runs size := by
        intro runs size hx
        rw [(indexStream_iff m runs size).2 hx] at hi
        cases hi
      exact ⟨.other m ms _ hno ih1, fun h => .other m ms _ hno (ih2 h)⟩
    | some x =>
      obtain ⟨runs, size⟩ := x
      have hx := (indexStream_iff m runs size).1 hi
      dsimp only
      generalize hf : (⟨volume, off, cs, runs, size.toNat⟩ : FragmentedFile) = f
      obtain ⟨b1, b2⟩ := allocationBuffers_some f
      cases he : (allocationBuffers f).err with
      | some e =>
        have hrows : (streamRows p r paths f).err ≠ none ∧ (streamRows p r paths f).items <+: entriesBlock p (n, sequenceOf r.base) paths (allocationBuffers f).items := by
          have hy := entriesRows_yields hp hn (paths := paths) (f := f)
          have hne : (forGen (fun b => forGen (indexEntryRows p r paths) (indexBufferEntries b)) (allocationBuffers f)).err ≠ none := by
            intro h
            rw [((forGen_err _ _).1 h).2] at he
            cases he
          unfold streamRows Gen.append
          revert hne
          cases h : (forGen (fun b => forGen (indexEntryRows p r paths) (indexBufferEntries b)) (allocationBuffers f)).err with
          | none => intro hne; exact absurd rfl hne
          | some x => intro _; exact ⟨(fun hh => by cases hh), hy.1⟩
        have happ : ∀ g : Gen Row, ((streamRows p r paths f).append g) = streamRows p r paths f := by
          intro g
          exact append_stop hrows.1
        rw [happ]
        exact ⟨.entries m ms _ runs size _ hx (by rw [hf]; exact b1) hrows.2, fun h => absurd h hrows.1⟩
      | none =>
        have hb := b2 he
        have hy := streamRows_yields hp hn (paths := paths) hb
        cases h : (streamRows p r paths f).err with
        | none =>
          rw [append_items h, hy.2 h]
          refine ⟨.index m ms _ runs size _ hx (by rw [hf]; exact hb) ih1, fun h => .index m ms _ runs size _ hx (by rw [hf]; exact hb) (ih2 ((append_err _ _).1 h).2)⟩
        | some e =>
          have happ : ∀ g : Gen Row, ((streamRows p r paths f).append g) = streamRows p r paths f := by
            intro g
            exact append_stop (by rw [h]; exact fun hh => by cases hh)
          rw [happ]
          exact ⟨.remnants m ms _ runs size _ hx (by rw [hf]; exact hb) hy.1, (fun hh => by rw [h] at hh; cases hh)⟩

theorem forGen_stop {α β : Type} (f : α → Gen β) (g : Gen α) : (forGen f g).items = (forEach f g.items).items := by
  unfold forGen Gen.append
  cases h : (forEach f g.items).err with
  | none => simp
  | some e => simp

/-- What is written for a file record. -/
theorem indexRecordRows_yields {volume : Bytes} {off cs : Nat} {file : Bytes} {p : MFT.Parser} (hp : Parser.init file true = .ok p) {r : FileRecord} {k : Nat}
    (hk : segmentAt file p.size k = some r.base) : Spec.IndexTable.BeginsBlock volume off cs file p r (indexRecordRows volume off cs p r).items ∧
      ((indexRecordRows volume off cs p r).err = none → Spec.IndexTable.IsBlock volume off cs file p r (indexRecordRows volume off cs p r).items) := by
  unfold indexRecordRows fullPaths
  cases hb : p.buildFullPaths r with
  | none => exact absurd hb (C18_paths_terminate file p hp r)
  | some x =>
    dsimp only
    cases x with
    | error e =>
      dsimp only
      by_cases he : isMftExc e = true
      · rw [if_pos he]
        exact ⟨.inl rfl, fun _ => .inl ⟨rfl, e, he, hb⟩⟩
      · rw [if_neg he]; exact ⟨.inl rfl, (fun h => by cases h)⟩
    | ok paths =>
      dsimp only
      obtain ⟨n, h1, h2⟩ := hasNumber_iff hk
      obtain ⟨y1, y2⟩ := attributeRows_yields (volume := volume) (off := off) (cs := cs) hp h2 (paths := paths) r.mergedAttributes.items
      rw [forGen_stop]
      refine ⟨.inr ⟨paths, n, hb, h1, y1⟩, fun h => .inr ⟨paths, n, hb, h1, y2 ?_⟩⟩
      exact (forEach_err _ _).2 ((forGen_err _ _).1 h).1

theorem indexRecordRows_of_none {volume : Bytes} {off cs : Nat} {file : Bytes} {p : MFT.Parser} (hp : Parser.init file true = .ok p) {r : FileRecord} {k : Nat}
    (hk : segmentAt file p.size k = some r.base) (h : (indexRecordRows volume off cs p r).err = none) :
    Spec.IndexTable.IsBlock volume off cs file p r (indexRecordRows volume off cs p r).items := (indexRecordRows_yields hp hk).2 h

/-! ### Exceptions -/

theorem bufferEntries_length {node : Bytes} {limit pos : Nat} (h : (indexEntriesLoop true node limit pos).err = none) :
    ∀ e ∈ (indexEntriesLoop true node limit pos).items, 14 ≤ e.raw.length := by
  have hfl : ∀ (e : IndexEntry) (fl : Nat), e.flags = .ok fl → 14 ≤ e.raw.length := by
    intro e fl he
    have := (unpack_of_ok he).1
    rw [slice_length] at this
    omega
  rw [indexEntriesLoop] at h ⊢
  by_cases hc : pos < limit ∧ pos < node.length
  · rw [if_pos hc] at h ⊢
    dsimp only at h ⊢
    cases h1 : (IndexEntry.mk pos (node.drop pos)).length with
    | error x => rw [h1] at h; cases h
    | ok len =>
      rw [h1] at h
      dsimp only at h ⊢
      by_cases h2 : len < 16
      · rw [if_pos h2]; intro e he; cases he
      · rw [if_neg h2] at h ⊢
        cases h3 : (IndexEntry.mk pos (node.drop pos)).attributeLength with
        | error x => rw [h3] at h; cases h
        | ok alen =>
          rw [h3] at h
          dsimp only at h ⊢
          by_cases h4 : alen = 0
          · rw [if_pos h4]; intro e he; cases he
          · rw [if_neg h4, if_pos rfl] at h ⊢
            cases h5 : (IndexEntry.mk pos (node.drop pos)).flags with
            | error x => rw [h5] at h; cases h
            | ok fl =>
              rw [h5] at h
              dsimp only at h ⊢
              have h14 := hfl _ _ h5
              by_cases h6 : fl &&& 2 > 0
              · rw [if_pos h6]
                intro e he
                rcases List.mem_singleton.1 he with rfl
                exact h14
              · rw [if_neg h6] at h ⊢
                intro e he
                rcases List.mem_cons.1 he with rfl | he
                · exact h14
                · have := align8_ge len
                  exact bufferEntries_length h e he
  · rw [if_neg hc]; intro e he; cases he
termination_by node.length - pos

theorem indexBufferEntries_length {b : Bytes} (h : (indexBufferEntries b).err = none) : ∀ e ∈ (indexBufferEntries b).items, 14 ≤ e.raw.length := by
  unfold indexBufferEntries indexEntriesAt at h ⊢
  cases h1 : unpackLE 4 (slice b 24 (24 + 4)) with
  | error x => rw [h1] at h; cases h
  | ok first =>
    rw [h1] at h
    dsimp only at h ⊢
    cases h2 : unpackLE 4 (slice b (24 + 4) (24 + 8)) with
    | error x => rw [h2] at h; cases h
    | ok free =>
      rw [h2] at h
      exact bufferEntries_length h

theorem indexNameRow_some {file : Bytes} {p : MFT.Parser} (hp : Parser.init file true = .ok p) {r : FileRecord} {n : Nat}
    (hn : r.base.masterFileTableNumber = some n) {paths : List (Str × Bytes)} {source : String} {ref : Cell} {v : Bytes} (h66 : 66 ≤ v.length) {e : Exc}
    (h : (indexNameRow p r paths source (.ok ref) v).err = some e) : PathsStop p r e := by
  unfold indexNameRow at h
  rcases andThen_some h with h | ⟨d, -, h⟩
  · unfold indexDirectory fileNameParent at h
    rw [unpackLE_of_length (by rw [slice_length]; omega), hn] at h
    dsimp only at h
    split at h
    · obtain ⟨r', g1, g2, g3⟩ := lookupPath_error hp _ _ _ h
      exact ⟨g3, r', .inr ⟨_, _, g1⟩, g2⟩
    · cases h
  · exfalso
    rw [name_ok h66, andThen_ok, andThen_ok, isDirectory_ok h66, andThen_ok, fileNameTimes_ok h66, andThen_ok, size_ok h66, andThen_ok] at h
    cases h

theorem carved_length' {l : List Bytes} {v : Bytes} (h : Carved.fileName v ∈ carve l false) : 66 ≤ v.length := by
  obtain ⟨value, -, h1, -⟩ := C21_entries_inside_partial l false v h
  rcases h1 with ⟨a, h1, rfl⟩ | ⟨a, h0, h1, rfl⟩
  · rw [List.length_drop]; omega
  · rw [List.length_append, List.length_drop, List.length_replicate]; omega

theorem indexRecordRows_some {volume : Bytes} {off cs : Nat} {file : Bytes} {p : MFT.Parser} (hp : Parser.init file true = .ok p) {r : FileRecord} {k : Nat}
    (hk : segmentAt file p.size k = some r.base) (hl : Listable volume off cs r) {e : Exc} (h : (indexRecordRows volume off cs p r).err = some e) :
    PathsStop p r e := by
  unfold indexRecordRows fullPaths at h
  cases hb : p.buildFullPaths r with
  | none => exact absurd hb (C18_paths_terminate file p hp r)
  | some x =>
    rw [hb] at h
    dsimp only at h
    cases x with
    | error e' =>
      dsimp only at h
      by_cases he : isMftExc e' = true
      · rw [if_pos he] at h; cases h
      · rw [if_neg he] at h; cases h
        exact ⟨by simpa using he, r, .inl rfl, hb⟩
    | ok paths =>
      dsimp only at h
      obtain ⟨n, -, hn⟩ := hasNumber_iff hk
      rcases forGen_some h with ⟨m, hm, h⟩ | h
      · unfold indexAttributeRows at h
        cases hi : indexStream m with
        | none => rw [hi] at h; cases h
        | some x =>
          obtain ⟨runs, size⟩ := x
          rw [hi] at h
          dsimp only at h
          obtain ⟨stream, hs, hbuf⟩ := hl.indexes m hm runs size ((indexStream_iff m runs size).1 hi)
          unfold streamRows at h
          rw [allocationBuffers_of hs, allocationSlack_of hs, andThen_ok] at h
          rcases append_some h with h | h
          · rcases forGen_some h with ⟨b, hbm, h⟩ | h
            · rcases forGen_some h with ⟨x, hx, h⟩ | h
              · have h14 := indexBufferEntries_length (hbuf b hbm) x hx
                unfold indexEntryRows IndexEntry.fileReference at h
                rw [attribute_ok h14, andThen_ok, unpackLE_of_length (by rw [slice_length]; omega)] at h
                cases hv : entryName x.raw with
                | none => rw [hv] at h; cases h
                | some v =>
                  rw [hv] at h
                  dsimp only at h
                  by_cases h66 : v.length ≤ 66
                  · rw [if_pos h66] at h; cases h
                  · rw [if_neg h66] at h
                    exact indexNameRow_some hp hn (by omega) h
              · rw [hbuf b hbm] at h; cases h
            · cases h
          · obtain ⟨c, hc, h⟩ := forEach_some h
            cases c with
            | partialName s => cases h
            | fileName v => exact indexNameRow_some hp hn (carved_length' hc) h
      · rw [hl.readable] at h; cases h

/-! ### Parts of a file -/

theorem readLoop_clusters {f : FragmentedFile} (hcs : 0 < f.clusterSize) (size : Nat) (data : Bytes) (pos : Nat) (d : Bytes) (pos' : Nat)
    (h : f.readLoop hcs size data pos = (.ok d, pos')) (q : Nat) (h1 : pos ≤ q) (h2 : q < f.fileSize) (h3 : q < pos + (size - data.length)) :
    ∃ c, f.readVirtualCluster (q / f.clusterSize) = .ok c := by
  fun_induction FragmentedFile.readLoop f hcs size data pos with
  | case1 data pos hs hp => omega
  | case2 data pos hs hp e hr => cases h
  | case3 data pos hs hp c hr this ih =>
    have hl := FragmentedFile.readVirtualCluster_length hr
    have hm := Nat.mod_lt pos hcs
    have hd := Nat.div_add_mod pos f.clusterSize
    have hlen : (slice c (pos % f.clusterSize) (pos % f.clusterSize + (size - data.length))).length = min (size - data.length) (f.clusterSize - pos % f.clusterSize) := by
      rw [slice_length, hl]; congr 1; omega
    by_cases hq : q < pos + (slice c (pos % f.clusterSize) (pos % f.clusterSize + (size - data.length))).length
    · refine ⟨c, ?_⟩
      have hdiv : q / f.clusterSize = pos / f.clusterSize := by
        rw [Nat.div_eq_iff hcs]
        rw [hlen] at hq
        rw [Nat.mul_comm] at hd
        omega
      rw [hdiv, hr]
    · refine ih h (by omega) ?_
      rw [List.length_append, hlen]
      rw [hlen] at hq
      omega
  | case4 data pos hs => omega

theorem readLoop_of_clusters {f : FragmentedFile} (hcs : 0 < f.clusterSize) (size : Nat) (data : Bytes) (pos : Nat)
    (h : ∀ q, pos ≤ q → q < f.fileSize → q < pos + (size - data.length) → ∃ c, f.readVirtualCluster (q / f.clusterSize) = .ok c) :
    ∃ d pos', f.readLoop hcs size data pos = (.ok d, pos') := by
  fun_induction FragmentedFile.readLoop f hcs size data pos with
  | case1 data pos hs hp => exact ⟨_, _, rfl⟩
  | case2 data pos hs hp e hr =>
    obtain ⟨c, hc⟩ := h pos (Nat.le_refl _) (by omega) (by omega)
    rw [hr] at hc; cases hc
  | case3 data pos hs hp c hr this ih =>
    have hl := FragmentedFile.readVirtualCluster_length hr
    have hlen : (slice c (pos % f.clusterSize) (pos % f.clusterSize + (size - data.length))).length = min (size - data.length) (f.clusterSize - pos % f.clusterSize) := by
      rw [slice_length, hl]; congr 1; omega
    refine ih fun q q1 q2 q3 => h q (by omega) q2 ?_
    rw [List.length_append, hlen] at q3
    rw [hlen] at q1
    omega
  | case4 data pos hs => exact ⟨_, _, rfl⟩

/-- C99: when a fragmented file can be read at once, a part of it that is inside of the file is the part of what is read; nothing is read
after its end. -/
theorem C99_parts (f : FragmentedFile) (hr : ∀ r ∈ f.dataRuns, 0 ≤ r.2) (file : Bytes) (h : contents f = .ok file) (i n : Nat) :
    file.length = f.fileSize ∧ (i + n ≤ f.fileSize → f.readAt i n = .ok (slice file i (i + n))) ∧ (f.fileSize ≤ i → f.readAt i n = .ok []) := by
  unfold contents at h
  unfold FragmentedFile.readAt at h ⊢
  cases hc : f.read 0 (some f.fileSize) with
  | mk x pos' =>
    rw [hc] at h
    dsimp only at h
    subst h
    obtain ⟨-, hlen, hbyte⟩ := C12_read_exact f hr 0 _ _ _ hc
    have hend : ∀ p s, f.fileSize ≤ p → f.read p (some (s : Nat)) = (.ok [], p) := by
      intro p s hp
      unfold FragmentedFile.read FragmentedFile.readSize
      rw [if_pos (.inr hp)]
    have hlen' : file.length = f.fileSize := by
      rw [hlen]
      dsimp only
      rw [if_neg (by omega)]
      unfold Spec.FragmentedFile.readCount
      split
      · rename_i hpos
        by_cases hcs : 0 < f.clusterSize
        · have := FragmentedFile.allocatedEnd_ge (f := f) hcs
          omega
        · exfalso
          have h0 : f.clusterSize = 0 := by omega
          unfold FragmentedFile.read FragmentedFile.effectiveSize FragmentedFile.readSize at hc
          dsimp only at hc
          rw [if_neg (by omega), if_neg (by omega), dif_neg hcs] at hc
          cases hc
      · omega
    refine ⟨hlen', fun hin => ?_, fun hout => by rw [hend i n hout]⟩
    by_cases hn : n = 0
    · subst hn
      have : f.read i (some ((0 : Nat) : Int)) = (.ok [], i) := by
        show f.readSize i (if ((0 : Nat) : Int) < 0 then f.fileSize - i else 0) = _
        rw [if_neg (by omega)]
        unfold FragmentedFile.readSize
        rw [if_pos (.inl (by omega))]
      rw [this]
      simp [slice]
    have hpos : 0 < f.fileSize := by omega
    have hcs : 0 < f.clusterSize := by
      apply Nat.pos_of_ne_zero
      intro h0
      unfold FragmentedFile.read FragmentedFile.effectiveSize FragmentedFile.readSize at hc
      dsimp only at hc
      rw [if_neg (by omega), if_neg (by omega), dif_neg (by omega)] at hc
      cases hc
    have hall : ∀ q, q < f.fileSize → ∃ c, f.readVirtualCluster (q / f.clusterSize) = .ok c := by
      intro q hq
      unfold FragmentedFile.read FragmentedFile.effectiveSize FragmentedFile.readSize at hc
      dsimp only at hc
      rw [if_neg (by omega), if_neg (by omega), dif_pos hcs] at hc
      cases h0 : f.readVirtualCluster (0 / f.clusterSize) with
      | error e => rw [h0] at hc; cases hc
      | ok c =>
        rw [h0] at hc
        dsimp only at hc
        have hl := FragmentedFile.readVirtualCluster_length h0
        have hlen0 : (slice c (0 % f.clusterSize) (0 % f.clusterSize + ((f.fileSize : Nat) : Int).toNat)).length = min f.fileSize f.clusterSize := by
          rw [slice_length, hl, Nat.zero_mod]; omega
        by_cases hq0 : q < (slice c (0 % f.clusterSize) (0 % f.clusterSize + ((f.fileSize : Nat) : Int).toNat)).length
        · refine ⟨c, ?_⟩
          rw [Nat.div_eq_of_lt (by omega), ← Nat.zero_div f.clusterSize, h0]
        · refine readLoop_clusters hcs _ _ _ _ _ hc q (by omega) hq (by omega)
    have hok : ∃ d p', f.read i (some n) = (.ok d, p') := by
      unfold FragmentedFile.read FragmentedFile.effectiveSize FragmentedFile.readSize
      dsimp only
      rw [if_neg (by omega), if_neg (by omega), dif_pos hcs]
      obtain ⟨c, hc⟩ := hall i (by omega)
      rw [hc]
      exact readLoop_of_clusters hcs _ _ _ fun q _ q2 _ => hall q q2
    obtain ⟨d, p', hd⟩ := hok
    rw [hd]
    obtain ⟨-, hl2, hb2⟩ := C12_read_exact f hr i _ _ _ hd
    have hl3 : d.length = n := by
      rw [hl2]
      dsimp only
      rw [if_neg (by omega)]
      unfold Spec.FragmentedFile.readCount
      rw [if_pos (by omega)]
      have := FragmentedFile.allocatedEnd_ge (f := f) hcs
      omega
    refine congrArg Except.ok (List.ext_getElem? fun j => ?_)
    by_cases hj : j < n
    · rw [hb2 j (by omega)]
      have := hbyte (i + j) (by omega)
      rw [Nat.zero_add] at this
      rw [← this]
      unfold slice
      rw [List.getElem?_take_of_lt (by omega), List.getElem?_drop]
    · rw [List.getElem?_eq_none (by omega), List.getElem?_eq_none (by rw [slice_length]; omega)]

example : (∀ r ∈ demoFragmented.dataRuns, 0 ≤ r.2) ∧ contents demoFragmented = .ok [6, 7, 0, 0, 2, 3, 4] ∧ demoFragmented.readAt 1 3 = .ok [7, 0, 0] := by
  decide +kernel

/-! ### The table -/

/-- C99: the table is the header and blocks of rows for the file records, in the order of their numbers: one block for each, from the first
one on.  A block has a row for each file name in the index buffers of this record, and for each one in the slack space of these buffers
(`IsBlock`).  All the blocks are written, unless the program stops (with an exception) at a record: then the indexes of this record cannot be
listed, or paths cannot be built, and what has been written for it is the beginning of its block. -/
theorem C99_index_table (volume : Bytes) (off : Nat) (f : FragmentedFile) (hf : openVolume volume off = .ok f) (mft : Bytes)
    (hm : contents f = .ok mft) (p : MFT.Parser) (hp : Parser.init mft true = .ok p) :
    ∃ (records : List FileRecord) (blocks : List (List Row)) (more : List Row) (err : Option Exc), p.fileRecords = ⟨records, none⟩ ∧
      processIndx volume off = ⟨Spec.IndexTable.header :: (blocks.flatten ++ more), err⟩ ∧ blocks.length ≤ records.length ∧
      (∀ (i : Nat) (rows : List Row), blocks[i]? = some rows → ∃ r, records[i]? = some r ∧ Spec.IndexTable.IsBlock volume off f.clusterSize mft p r rows) ∧
      (err = none → more = [] ∧ blocks.length = records.length) ∧
      (∀ e, err = some e → ∃ r, records[blocks.length]? = some r ∧ (¬ Listable volume off f.clusterSize r ∨ PathsStop p r e) ∧
        Spec.IndexTable.BeginsBlock volume off f.clusterSize mft p r more) := by
  have hrec := C75_file_records mft p hp false
  generalize hl : ((List.range (mft.length / p.size)).filterMap (recordAt mft p.size)).filter
      (fun r => !false || (flagsOf r.base).testBit 0) = records at hrec
  have hk : ∀ r ∈ records, ∃ k, segmentAt mft p.size k = some r.base := by
    intro r hr
    have : r ∈ (p.fileRecords false).items := by rw [hrec]; exact hr
    obtain ⟨k, -, h, -⟩ := (C75_agrees_with_lookup mft p hp r).1 this
    exact ⟨k, h⟩
  have hproc : processIndx volume off = .cons Spec.IndexTable.header ((forEach (indexRecordRows volume off f.clusterSize p) records).append ⟨[], none⟩) := by
    unfold processIndx
    rw [hf, andThen_ok, hm, andThen_ok, show Parser.init mft = .ok p from hp, andThen_ok]
    rw [show p.fileRecords = ⟨records, none⟩ from hrec]
    rfl
  rcases forEach_split (indexRecordRows volume off f.clusterSize p) records with hall | ⟨pre, x, post, e, h1, h2, h3, h4⟩
  · refine ⟨records, records.map fun r => (indexRecordRows volume off f.clusterSize p r).items, [], none, hrec, ?_, by simp, ?_, fun _ => ⟨rfl, by simp⟩, (fun e he => by cases he)⟩
    · rw [hproc]
      have herr := (forEach_err _ _).2 hall
      have hi := forEach_items _ _ hall
      unfold Gen.append Gen.cons
      rw [herr, hi]
      simp [List.flatMap_def]
    · intro i rows hrows
      rw [List.getElem?_map] at hrows
      cases hx : records[i]? with
      | none => rw [hx] at hrows; cases hrows
      | some r =>
        rw [hx] at hrows
        cases hrows
        have hm := List.mem_of_getElem? hx
        obtain ⟨k, hk⟩ := hk r hm
        exact ⟨r, rfl, indexRecordRows_of_none hp hk (hall r hm)⟩
  · refine ⟨records, pre.map fun r => (indexRecordRows volume off f.clusterSize p r).items, (indexRecordRows volume off f.clusterSize p x).items, some e, hrec, ?_, by rw [h1]; simp, ?_, (fun he => by cases he), ?_⟩
    · rw [hproc, h4]
      simp [Gen.append, Gen.cons, List.flatMap_def]
    · intro i rows hrows
      rw [List.getElem?_map] at hrows
      cases hx : pre[i]? with
      | none => rw [hx] at hrows; cases hrows
      | some r =>
        rw [hx] at hrows
        cases hrows
        have hm := List.mem_of_getElem? hx
        obtain ⟨k, hk⟩ := hk r (by rw [h1]; simp [hm])
        refine ⟨r, ?_, indexRecordRows_of_none hp hk (h2 r hm)⟩
        rw [h1, List.getElem?_append_left (List.getElem?_eq_some_iff.1 hx).1, hx]
    · intro e' he
      cases he
      obtain ⟨k, hk⟩ := hk x (by rw [h1]; simp)
      refine ⟨x, by rw [h1]; simp, ?_, (indexRecordRows_yields hp hk).1⟩
      by_cases ht : Listable volume off f.clusterSize x
      · exact .inr (indexRecordRows_some hp hk ht h3)
      · exact .inl ht

/-- C99, a part that is missing from the above: no file record is left out.  This is not true of every file table, but when paths can be built
and the indexes can be listed, each of the records has its rows. -/
theorem C99_complete_partial (volume : Bytes) (off : Nat) (f : FragmentedFile) (hf : openVolume volume off = .ok f) (mft : Bytes)
    (hm : contents f = .ok mft) (p : MFT.Parser) (hp : Parser.init mft true = .ok p) (hu : UsableTable mft p.size)
    (ht : ∀ r ∈ p.fileRecords.items, Listable volume off f.clusterSize r) :
    ∃ blocks : List (List Row), processIndx volume off = ⟨Spec.IndexTable.header :: blocks.flatten, none⟩ ∧ blocks.length = p.fileRecords.items.length ∧
      ∀ (i : Nat) (rows : List Row), blocks[i]? = some rows → ∃ r paths n, p.fileRecords.items[i]? = some r ∧ p.buildFullPaths r = some (.ok paths) ∧
        HasNumber mft p.size r n ∧ AttributeRows volume off f.clusterSize p (n, sequenceOf r.base) paths r.mergedAttributes.items rows := by
  obtain ⟨records, blocks, more, err, h1, h2, -, h4, h5, h6⟩ := C99_index_table volume off f hf mft hm p hp
  have hfound : ∀ r ∈ p.fileRecords.items, ∀ e, p.buildFullPaths r ≠ some (.error e) := by
    intro r hr e
    obtain ⟨k, -, -, hg⟩ := (C75_agrees_with_lookup mft p hp r).1 hr
    exact buildFullPaths_usable hp hu hg e
  have herr : err = none := by
    cases err with
    | none => rfl
    | some e =>
      exfalso
      obtain ⟨r, hr, h⟩ := h6 e rfl
      have hm : r ∈ p.fileRecords.items := by rw [h1]; exact List.mem_of_getElem? hr
      rcases h with h | ⟨-, r', h, hb⟩
      · exact h (ht r hm)
      · rcases h with rfl | ⟨n, s, hg⟩
        · exact hfound r' hm e hb
        · exact buildFullPaths_usable hp hu hg e hb
  subst herr
  obtain ⟨rfl, hlen⟩ := h5 rfl
  refine ⟨blocks, by rw [h2, List.append_nil], by rw [h1]; exact hlen, fun i rows hrows => ?_⟩
  obtain ⟨r, hr, hblock⟩ := h4 i rows hrows
  have hr' : p.fileRecords.items[i]? = some r := by rw [h1]; exact hr
  rcases hblock with ⟨-, e, -, hb⟩ | ⟨paths, n, hb, hn, ha⟩
  · exact absurd hb (hfound r (List.mem_of_getElem? hr') e)
  · exact ⟨r, paths, n, hr', hb, hn, ha⟩

/-- C99 (partial).  The full statement: a file name is put in the directory that it records.  Proved for the file names that record the
directory whose index they are in.  Missing: other file names, which are put in a directory that they do not record (`C99_wrong_parent`). -/
theorem C99_parent_partial (p : MFT.Parser) (n s : Nat) (paths : List (Str × Bytes)) (source : String) (reference : Cell) (v : Bytes)
    (h : parentOf v = encodeFileRecordSegmentReference n s) :
    (nameRow p (n, s) paths source reference v)[3]? = some (.str (inDirectory (paths.head?.map (·.1)) (nameOf v))) := by
  unfold nameRow directoryOf
  rw [if_pos h]
  rfl

end Verif.Props
