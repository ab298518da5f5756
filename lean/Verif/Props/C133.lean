/-
Property C133: a parser of a file table whose first pass is executed later, or again (dfir_ntfs/MFT.py:936-966, 1281-1317).
-/
import Verif.Props.C16_C20
import Verif.Model.MFT.Object
namespace Verif.Props
open Verif.MFT Verif.Spec.Parser

/-! ### The loop of the first pass -/

/-- `n` copies of a list, one after another. -/
def copies {α : Type} (n : Nat) (l : List α) : List α := (List.replicate n l).flatten

theorem copies_succ {α : Type} (n : Nat) (l : List α) : copies (n + 1) l = copies n l ++ l := by
  unfold copies
  rw [List.replicate_succ', List.flatten_append]
  simp

theorem copies_one {α : Type} (l : List α) : copies 1 l = l := by simp [copies]

/-- Another pass appends the children to the lists of a dictionary that has all the keys. -/
theorem firstPassLoop_again (file : Bytes) (size : Nat) (hs : 0 < size) (F : List (Nat × List Nat)) (pre : Nat × List Nat → List Nat)
    (hkeys : ∀ k f, k < file.length / size → segmentAt file size k = some f → baseOf f ≠ 0 → F.any (·.1 == baseOf f) = true)
    (h0 : ∀ e ∈ F, e.1 ≠ 0) (i cnt ccnt : Nat)
    (hi : i ≤ file.length / size) (hcnt : cnt = validCount file size i) (hccnt : ccnt = childCount file size i) :
    firstPassLoop file size i (F.map fun e => (e.1, pre e ++ (List.range i).filter (isChild file size e.1))) cnt ccnt =
      .ok (F.map (fun e => (e.1, pre e ++ childrenOf file size e.1)),
        validCount file size (file.length / size), childCount file size (file.length / size)) := by
  have stop : file.length / size ≤ i → (Except.ok (F.map (fun e => (e.1, pre e ++ (List.range i).filter (isChild file size e.1))), cnt, ccnt) :
        Except Exc (List (Nat × List Nat) × Nat × Nat)) =
      .ok (F.map (fun e => (e.1, pre e ++ childrenOf file size e.1)),
        validCount file size (file.length / size), childCount file size (file.length / size)) := by
    intro hle
    have he : i = file.length / size := by omega
    subst he
    rw [hcnt, hccnt]
    rfl
  unfold firstPassLoop
  by_cases hlt : i * size < file.length ∧ 0 < size
  · rw [if_pos hlt]
    dsimp only
    have hl := slice_length file (i * size) (i * size + size)
    by_cases hb : (slice file (i * size) (i * size + size)).length ≠ size
    · rw [if_pos hb]
      apply stop
      have : file.length < (i + 1) * size := by rw [Nat.add_mul]; omega
      exact Nat.le_of_lt_succ ((Nat.div_lt_iff_lt_mul hs).2 this)
    · rw [if_neg hb]
      have hi' : i + 1 ≤ file.length / size := by
        rw [Nat.le_div_iff_mul_le hs, Nat.add_mul]; omega
      have hdec : file.length - (i + 1) * size < file.length - i * size := by rw [Nat.add_mul]; omega
      have hrec := firstPassLoop_again file size hs F pre hkeys h0 (i + 1)
      cases hinit : FileRecordSegment.init (slice file (i * size) (i * size + size)) true (some i) with
      | error e =>
        have hseg : segmentAt file size i = none := by unfold segmentAt; rw [hinit]; rfl
        dsimp only
        rw [if_pos (isFrsExc_init hinit)]
        rw [← hrec cnt ccnt hi' (by unfold validCount; rw [List.range_succ, List.filter_append]; simp [hseg, hcnt, validCount])
          (by unfold childCount; rw [List.range_succ, List.filter_append]; simp [hseg, hccnt, childCount])]
        congr 1
        apply List.map_congr_left
        intro e _
        rw [List.range_succ, List.filter_append]
        simp [isChild, hseg]
      | ok f =>
        have hseg : segmentAt file size i = some f := by unfold segmentAt; rw [hinit]; rfl
        dsimp only
        by_cases hbase : f.isBaseFileRecordSegment = true
        · rw [if_pos hbase]
          have hz : baseOf f = 0 := by unfold FileRecordSegment.isBaseFileRecordSegment at hbase; simpa [base_eq] using hbase
          rw [← hrec (cnt + 1) ccnt hi' (by unfold validCount; rw [List.range_succ, List.filter_append]; simp [hseg, hcnt, validCount])
            (by unfold childCount; rw [List.range_succ, List.filter_append]; simp [hseg, hccnt, childCount, hz])]
          congr 1
          apply List.map_congr_left
          intro e _
          rw [List.range_succ, List.filter_append]
          simp [isChild, hseg, hz]
        · rw [if_neg hbase]
          have hz : baseOf f ≠ 0 := by unfold FileRecordSegment.isBaseFileRecordSegment at hbase; simpa [base_eq] using hbase
          rw [← hrec (cnt + 1) (ccnt + 1) hi' (by unfold validCount; rw [List.range_succ, List.filter_append]; simp [hseg, hcnt, validCount])
            (by unfold childCount; rw [List.range_succ, List.filter_append]; simp [hseg, hccnt, childCount, hz])]
          congr 1
          rw [base_eq]
          unfold cacheAdd
          have hany := hkeys i f hi' hseg hz
          rw [if_pos (by rw [List.any_map]; exact hany), List.map_map]
          apply List.map_congr_left
          intro e he
          have h0e := h0 e he
          simp only [Function.comp]
          rw [List.range_succ, List.filter_append]
          by_cases hk : e.1 = baseOf f
          · have : [i].filter (isChild file size e.1) = [i] := by simp [isChild, hseg, hz, hk]
            rw [if_pos (by simpa using hk), this, List.append_assoc]
          · have : [i].filter (isChild file size e.1) = [] := by
              simp [isChild, hseg, hz]; exact fun h => hk h.symm
            rw [if_neg (by simpa using hk), this, List.append_nil]
  · rw [if_neg hlt]
    apply stop
    have : file.length ≤ i * size := by omega
    calc file.length / size ≤ i * size / size := Nat.div_le_div_right this
      _ = i := Nat.mul_div_cancel _ hs
termination_by file.length - i * size

/-- The entries of the dictionary of a loaded parser. -/
theorem Loaded.entries {p : Parser} (hp : p.Loaded) {e : Nat × List Nat} (he : e ∈ p.cache) :
    e.2 = childrenOf p.file p.size e.1 ∧ e.2 ≠ [] := by
  have : ∀ l : List (Nat × List Nat), (l.map (·.1)).Nodup → e ∈ l → cacheGet l e.1 = some e.2 := by
    intro l
    unfold cacheGet
    induction l with
    | nil => intro _ h; cases h
    | cons y ys ih =>
      intro hnd hm
      rw [List.map_cons, List.nodup_cons] at hnd
      rcases List.mem_cons.1 hm with rfl | hm
      · simp
      · have : y.1 ≠ e.1 := fun h => hnd.1 (by rw [h]; exact List.mem_map.2 ⟨e, hm, rfl⟩)
        rw [List.find?_cons_of_neg (by simpa using this)]
        exact ih hnd.2 hm
  have h := this _ hp.keys he
  rw [hp.cache] at h
  unfold optList at h
  split at h
  · cases h
  · next hne =>
    have h := Option.some.inj h
    exact ⟨h.symm, by rw [← h]; exact hne⟩

theorem Loaded.nonzero {p : Parser} (hp : p.Loaded) {e : Nat × List Nat} (he : e ∈ p.cache) : e.1 ≠ 0 := by
  obtain ⟨h1, h2⟩ := Loaded.entries hp he
  intro h0
  apply h2
  rw [h1, h0, childrenOf_eq, List.filter_eq_nil_iff]
  intro k _
  unfold isChild
  split <;> simp

theorem Loaded.has {p : Parser} (hp : p.Loaded) (k : Nat) (f : FileRecordSegment) (hk : k < p.file.length / p.size)
    (hf : segmentAt p.file p.size k = some f) (hb : baseOf f ≠ 0) : p.cache.any (·.1 == baseOf f) = true := by
  have h := hp.cache (baseOf f)
  unfold optList at h
  rw [if_neg] at h
  · unfold cacheGet at h
    cases hx : p.cache.find? (·.1 == baseOf f) with
    | none => rw [hx] at h; cases h
    | some x => exact List.any_eq_true.2 ⟨x, List.mem_of_find?_eq_some hx, by have := List.find?_some hx; simpa using this⟩
  · intro hn
    rw [childrenOf_eq, List.filter_eq_nil_iff] at hn
    exact hn k (List.mem_range.2 hk) (by simp [isChild, hf, hb])

/-- The parser with `n` copies of the children. -/
def withCopies (p : Parser) (n : Nat) : Parser := { p with cache := p.cache.map fun e => (e.1, copies n e.2) }

theorem withCopies_one (p : Parser) : withCopies p 1 = p := by
  unfold withCopies
  have : (p.cache.map fun e => (e.1, copies 1 e.2)) = p.cache := by
    rw [List.map_congr_left (g := id) (fun e _ => by rw [copies_one]; rfl), List.map_id]
  rw [this]

theorem firstPassLoop_copies {p : Parser} (hp : p.Loaded) (n : Nat) :
    firstPassLoop p.file p.size 0 (withCopies p n).cache 0 0 =
      .ok ((withCopies p (n + 1)).cache, validCount p.file p.size (p.file.length / p.size), childCount p.file p.size (p.file.length / p.size)) := by
  have hs : 0 < p.size := by have := hp.size; omega
  have h := firstPassLoop_again p.file p.size hs p.cache (fun e => copies n e.2) (fun k f => Loaded.has hp k f) (fun e => Loaded.nonzero hp) 0 0 0
    (Nat.zero_le _) rfl rfl
  have e1 : (p.cache.map fun e => (e.1, copies n e.2 ++ (List.range 0).filter (isChild p.file p.size e.1))) = (withCopies p n).cache := by
    apply List.map_congr_left
    intro e _
    simp
  have e2 : (p.cache.map fun e => (e.1, copies n e.2 ++ childrenOf p.file p.size e.1)) = (withCopies p (n + 1)).cache := by
    apply List.map_congr_left
    intro e he
    rw [copies_succ, ← (Loaded.entries hp he).1]
  rw [e1, e2] at h
  exact h

/-! ### Looking up records -/

/-- A record with `n` copies of its child segments. -/
def repeated (n : Nat) (r : FileRecord) : FileRecord := ⟨r.base, copies n r.children⟩

theorem loadChildren_append (p : Parser) (a b : List Nat) {x y : List FileRecordSegment} (ha : p.loadChildren a = .ok x) (hb : p.loadChildren b = .ok y) :
    p.loadChildren (a ++ b) = .ok (x ++ y) := by
  induction a generalizing x with
  | nil => cases ha; exact hb
  | cons k a ih =>
    rw [List.cons_append]
    unfold Parser.loadChildren at ha ⊢
    cases hg : p.getSegment k with
    | error e => rw [hg] at ha; cases ha
    | ok f =>
      rw [hg] at ha
      dsimp only at ha ⊢
      cases hl : p.loadChildren a with
      | error e => rw [hl] at ha; cases ha
      | ok fs =>
        rw [hl] at ha
        cases ha
        rw [ih hl]
        rfl

theorem loadChildren_copies (p : Parser) (a : List Nat) {x : List FileRecordSegment} (ha : p.loadChildren a = .ok x) (n : Nat) :
    p.loadChildren (copies n a) = .ok (copies n x) := by
  induction n with
  | zero => rfl
  | succ n ih => rw [copies_succ, copies_succ]; exact loadChildren_append p _ _ ih ha

theorem getSegment_withCopies (p : Parser) (n k : Nat) : (withCopies p n).getSegment k = p.getSegment k := rfl

theorem loadChildren_withCopies (p : Parser) (n : Nat) (l : List Nat) : (withCopies p n).loadChildren l = p.loadChildren l := by
  induction l with
  | nil => rfl
  | cons k l ih => unfold Parser.loadChildren; rw [getSegment_withCopies, ih]

theorem cacheGet_withCopies (p : Parser) (n ref : Nat) : cacheGet (withCopies p n).cache ref = (cacheGet p.cache ref).map (copies n) := by
  unfold cacheGet withCopies
  dsimp only
  induction p.cache with
  | nil => rfl
  | cons e l ih =>
    rw [List.map_cons]
    by_cases h : e.1 = ref
    · rw [List.find?_cons_of_pos (by simpa using h), List.find?_cons_of_pos (by simpa using h)]; rfl
    · rw [List.find?_cons_of_neg (by simpa using h), List.find?_cons_of_neg (by simpa using h)]; exact ih

theorem assemble_withCopies {p : Parser} (hp : p.Loaded) (n : Nat) {f : FileRecordSegment} {k : Nat} (hf : f.suggestedMftNumber = some k) :
    (withCopies p n).assemble f = (p.assemble f).map (repeated n) := by
  have h := assemble_eq hp hf
  rw [h]
  unfold Parser.assemble at h ⊢
  rw [mftNumber_eq hf] at h ⊢
  dsimp only at h ⊢
  rw [cacheGet_withCopies]
  cases hc : cacheGet p.cache (encodeFileRecordSegmentReference (if f.shortVersion then k else u16 f.data 42 * 2 ^ 32 + u32 f.data 44)
      (effectiveSequenceNumber f)) with
  | none =>
    rw [hc] at h
    dsimp only [Option.map] at h ⊢
    have hh := congrArg FileRecord.children (Except.ok.inj h)
    dsimp only at hh
    show Except.ok _ = Except.ok _
    simp only [repeated, copies]
    rw [← hh]
    simp
  | some ns =>
    rw [hc] at h
    dsimp only [Option.map] at h ⊢
    rw [loadChildren_withCopies]
    cases hl : p.loadChildren ns with
    | error e => rw [hl] at h; cases h
    | ok fs =>
      rw [hl] at h
      rw [loadChildren_copies p ns hl]
      cases h
      rfl

theorem suggested_of_getSegment {p : Parser} (hp : p.Loaded) {k : Nat} {f : FileRecordSegment} (h : p.getSegment k = .ok f) :
    f.suggestedMftNumber = some k :=
  segmentAt_suggested ((getSegment_iff (by have := hp.size; omega)).1 h)

theorem getBaseRecord_withCopies {p : Parser} (hp : p.Loaded) (n k : Nat) (expected : Option Nat) :
    (withCopies p n).getBaseRecord k expected = (p.getBaseRecord k expected).map (repeated n) := by
  unfold Parser.getBaseRecord Parser.getRecordWith
  rw [getSegment_withCopies]
  cases hg : p.getSegment k with
  | error e => rfl
  | ok f =>
    dsimp only
    split
    · split
      · rfl
      · exact assemble_withCopies hp n (suggested_of_getSegment hp hg)
    · rfl

theorem find_withCopies (p : Parser) (n : Nat) (k : Nat) :
    ((withCopies p (n + 1)).cache.find? (fun e => e.2.contains k)).map (·.1) = (p.cache.find? (fun e => e.2.contains k)).map (·.1) := by
  have hc : ∀ l : List Nat, (copies (n + 1) l).contains k = l.contains k := by
    intro l
    rw [Bool.eq_iff_iff, List.contains_iff_mem, List.contains_iff_mem]
    unfold copies
    rw [List.mem_flatten]
    constructor
    · rintro ⟨x, hx, hk⟩
      rw [List.eq_of_mem_replicate hx] at hk
      exact hk
    · intro h
      exact ⟨l, List.mem_replicate.2 ⟨by omega, rfl⟩, h⟩
  unfold withCopies
  dsimp only
  induction p.cache with
  | nil => rfl
  | cons e l ih =>
    rw [List.map_cons, List.find?_cons, List.find?_cons]
    dsimp only
    rw [hc]
    cases e.2.contains k with
    | true => rfl
    | false => exact ih

theorem getRecord_withCopies {p : Parser} (hp : p.Loaded) (n k : Nat) (expected : Option Nat) :
    (withCopies p (n + 1)).getRecord k expected = (p.getRecord k expected).map (repeated (n + 1)) := by
  unfold Parser.getRecord Parser.getRecordWith
  rw [getSegment_withCopies]
  cases hg : p.getSegment k with
  | error e => rfl
  | ok f =>
    dsimp only
    split
    · split
      · rfl
      · exact assemble_withCopies hp _ (suggested_of_getSegment hp hg)
    · split
      · rfl
      · have hf := find_withCopies p n k
        cases h1 : p.cache.find? (fun e => e.2.contains k) with
        | none =>
          rw [h1] at hf
          rw [Option.map_none, Option.map_eq_none_iff] at hf
          rw [hf]
          rfl
        | some e =>
          rw [h1] at hf
          cases h2 : (withCopies p (n + 1)).cache.find? (fun e => e.2.contains k) with
          | none => rw [h2] at hf; cases hf
          | some e2 =>
            rw [h2] at hf
            have hf : e2.1 = e.1 := Option.some.inj hf
            dsimp only
            rw [hf]
            exact getBaseRecord_withCopies hp _ _ _

theorem fileRecordsLoop_withCopies {p : Parser} (hp : p.Loaded) (n : Nat) (inUseOnly : Bool) (i : Nat) :
    fileRecordsLoop (withCopies p n) inUseOnly i =
      ⟨(fileRecordsLoop p inUseOnly i).items.map (repeated n), (fileRecordsLoop p inUseOnly i).err⟩ := by
  unfold fileRecordsLoop
  show (if i * p.size < p.file.length ∧ 0 < p.size then _ else _) = _
  by_cases hlt : i * p.size < p.file.length ∧ 0 < p.size
  · rw [if_pos hlt, if_pos hlt]
    dsimp only
    have hdec : p.file.length - (i + 1) * p.size < p.file.length - i * p.size := by rw [Nat.add_mul]; omega
    have hrec := fileRecordsLoop_withCopies hp n inUseOnly (i + 1)
    show (if (slice p.file (i * p.size) (i * p.size + p.size)).length ≠ p.size then _ else _) = _
    by_cases hb : (slice p.file (i * p.size) (i * p.size + p.size)).length ≠ p.size
    · rw [if_pos hb, if_pos hb]; rfl
    · rw [if_neg hb, if_neg hb]
      show (match FileRecordSegment.init (slice p.file (i * p.size) (i * p.size + p.size)) true (some i) with | .error e => _ | .ok f => _) = _
      cases hinit : FileRecordSegment.init (slice p.file (i * p.size) (i * p.size + p.size)) true (some i) with
      | error e =>
        dsimp only
        split
        · exact hrec
        · rfl
      | ok f =>
        dsimp only
        split
        · exact hrec
        · split
          · have hsug : f.suggestedMftNumber = some i := by
              refine segmentAt_suggested (file := p.file) (size := p.size) ?_
              unfold segmentAt
              rw [hinit]
              rfl
            rw [assemble_withCopies hp n hsug]
            cases p.assemble f with
            | error e => rfl
            | ok r =>
              dsimp only [Except.map]
              rw [hrec]
              rfl
          · exact hrec
  · rw [if_neg hlt, if_neg hlt]; rfl
termination_by p.file.length - i * p.size

/-! ### The property -/

theorem Parser.init_false {file : Bytes} {p : Parser} (h : Parser.init file false = .ok p) :
    p.file = file ∧ (p.size = 1024 ∨ p.size = 4096) ∧ p.cache = [] ∧
    ∃ cache, firstPassLoop file p.size 0 [] 0 0 =
      .ok (cache, validCount file p.size (file.length / p.size), childCount file p.size (file.length / p.size)) ∧
      Parser.init file true = .ok { p with cache := cache } := by
  unfold Parser.init at h ⊢
  obtain ⟨h1, h⟩ := of_ite_error h
  rw [if_neg h1]
  dsimp only at h ⊢
  obtain ⟨h2, h⟩ := of_ite_error h
  rw [if_neg h2]
  obtain ⟨h3, h⟩ := of_ite_error h
  rw [if_neg h3]
  have hsz := mem_sizes.1 (Decidable.not_not.1 h3)
  generalize leNat (slice file 28 32) = size at *
  split at h
  · cases h
  · next f hf =>
    split at h
    · cases h
    · next hv =>
      rw [if_neg (fun h => by cases h)] at h
      cases h
      obtain ⟨cache', e1, e2, e3⟩ := firstPassLoop_spec file size (by omega) 0 [] 0 0 (Nat.zero_le _) (by simp) (fun ref => rfl) rfl rfl
      refine ⟨rfl, hsz, rfl, cache', e1, ?_⟩
      rw [if_pos rfl, e1]

/-- C133: a table that is opened without the first pass gives, when the pass is executed later, the parser that the constructor gives with the
pass; the statistics are the numbers of valid segments and of valid segments that name a base segment. -/
theorem C133_later (file : Bytes) (t : Table) (h : Table.init file false = .ok t) :
    ∃ u, t.executeFirstPass = .ok u ∧ Table.init file true = .ok u ∧ Parser.init file true = .ok u.parser ∧ u.firstPassDone = true ∧
      u.statistics = some
        (((List.range (file.length / t.parser.size)).filter fun k => (segmentAt file t.parser.size k).isSome).length,
         ((List.range (file.length / t.parser.size)).filter fun k => (segmentAt file t.parser.size k).any fun f => baseOf f != 0).length) := by
  unfold Table.init at h ⊢
  cases hp : Parser.init file false with
  | error e => rw [hp] at h; cases h
  | ok p =>
    rw [hp] at h
    dsimp only at h ⊢
    rw [if_neg (fun h => by cases h)] at h
    cases h
    obtain ⟨h1, h2, h3, cache, h4, h5⟩ := Parser.init_false hp
    refine ⟨⟨{ p with cache := cache }, some _, true⟩, ?_, ?_, h5, rfl, rfl⟩
    · unfold Table.executeFirstPass
      dsimp only
      rw [h1, h3, h4]
      rfl
    · rw [if_pos rfl]
      unfold Table.executeFirstPass
      dsimp only
      rw [h1, h3, h4]
      rfl

/-- C133: until then, the records have no child segments, and the number of a child segment is refused. -/
theorem C133_before (file : Bytes) (t : Table) (h : Table.init file false = .ok t) (k : Nat) (expected : Option Nat) :
    (∀ r, t.parser.getRecord k expected = .ok r → r.children = []) ∧
    (∀ f, segmentAt file t.parser.size k = some f → baseOf f ≠ 0 → t.parser.getRecord k expected = .error .MasterFileTableException) ∧
    (∀ inUseOnly, ∀ r ∈ (t.parser.fileRecords inUseOnly).items, r.children = []) := by
  unfold Table.init at h
  cases hp : Parser.init file false with
  | error e => rw [hp] at h; cases h
  | ok p =>
    rw [hp] at h
    dsimp only at h
    rw [if_neg (fun h => by cases h)] at h
    cases h
    obtain ⟨h1, h2, h3, -⟩ := Parser.init_false hp
    have hs : 0 < p.size := by omega
    have hasm : ∀ f r, p.assemble f = .ok r → r.children = [] := by
      intro f r hr
      unfold Parser.assemble at hr
      split at hr
      · cases hr
      · rw [h3] at hr
        cases hr
        rfl
    refine ⟨fun r hr => ?_, fun f hf hb => ?_, fun inUseOnly => ?_⟩
    · unfold Parser.getRecord Parser.getRecordWith at hr
      dsimp only at hr
      rw [h3] at hr
      split at hr
      · cases hr
      · split at hr
        · split at hr
          · cases hr
          · exact hasm _ _ hr
        · split at hr <;> cases hr
    · unfold Parser.getRecord Parser.getRecordWith
      dsimp only at hf ⊢
      rw [← h1] at hf
      rw [(getSegment_iff hs).2 hf, h3]
      dsimp only
      rw [if_neg (by unfold FileRecordSegment.isBaseFileRecordSegment; simpa [base_eq] using hb)]
      split <;> rfl
    · unfold Parser.fileRecords
      dsimp only
      have : ∀ i, ∀ r ∈ (fileRecordsLoop p inUseOnly i).items, r.children = [] := by
        intro i
        fun_induction fileRecordsLoop p inUseOnly i with
        | case6 i hlt buf hb f hf hu hbase r hr ih =>
          intro r' hr'
          rcases List.mem_cons.1 hr' with rfl | hr'
          · exact hasm _ _ hr
          · exact ih r' hr'
        | _ => first | (intro r hr; cases hr; done) | assumption
      exact this 0

theorem executeFirstPasses_eq (file : Bytes) (t : Table) (h : Table.init file true = .ok t) (n : Nat) :
    t.executeFirstPasses n = .ok ⟨withCopies t.parser (n + 1), t.statistics, true⟩ ∧ t.parser.Loaded := by
  obtain ⟨t0, h0⟩ : ∃ t0, Table.init file false = .ok t0 := by
    unfold Table.init at h ⊢
    cases hp : Parser.init file false with
    | error e => rw [hp] at h; cases h
    | ok p => exact ⟨_, rfl⟩
  obtain ⟨t', -, h1, h2, h3, h4⟩ := C133_later file t0 h0
  rw [h] at h1
  cases h1
  obtain ⟨hfile, hl⟩ := Parser.init_loaded h2
  have hsize : t0.parser.size = t.parser.size := by
    unfold Table.init at h0
    cases hp : Parser.init file false with
    | error e => rw [hp] at h0; cases h0
    | ok p =>
      rw [hp] at h0
      cases h0
      obtain ⟨-, -, -, cache, -, h5⟩ := Parser.init_false hp
      rw [h2] at h5
      have := Except.ok.inj h5
      rw [this]
  have passes : ∀ m n, Table.executeFirstPasses ⟨withCopies t.parser (n + 1), t.statistics, true⟩ m =
      .ok ⟨withCopies t.parser (n + 1 + m), t.statistics, true⟩ := by
    intro m
    induction m with
    | zero => intro n; rfl
    | succ m ih =>
      intro n
      unfold Table.executeFirstPasses Table.executeFirstPass
      have e := firstPassLoop_copies hl (n + 1)
      have hf1 : (withCopies t.parser (n + 1)).file = t.parser.file := rfl
      have hf2 : (withCopies t.parser (n + 1)).size = t.parser.size := rfl
      dsimp only
      rw [hf1, hf2, e]
      dsimp only
      have hstat : t.statistics = some (validCount t.parser.file t.parser.size (t.parser.file.length / t.parser.size),
          childCount t.parser.file t.parser.size (t.parser.file.length / t.parser.size)) := by
        rw [h4, hsize, hfile]; rfl
      have := ih (n + 1)
      rw [hstat] at this ⊢
      rw [show n + 1 + 1 + m = n + 1 + (m + 1) by omega] at this
      exact this
  have ht : t = ⟨withCopies t.parser (0 + 1), t.statistics, true⟩ := by
    rw [withCopies_one]
    rw [← h3]
  have hrun := passes n 0
  rw [← ht] at hrun
  rw [show 0 + 1 + n = n + 1 by omega] at hrun
  exact ⟨hrun, hl⟩

/-- C133: the first pass never fails, however often it is executed, and it always gives the same statistics; but after `n` more passes the records
have `n + 1` copies of all their child segments.  All other results are those of the parser that was opened with one pass: the same numbers are
refused with the same exceptions, and the same records are listed in the same order.
(Missing from the full statement: that another pass changes nothing.  It changes what the records with child segments are, see C133_doubled.) -/
theorem C133_passes_partial (file : Bytes) (t : Table) (h : Table.init file true = .ok t) (n : Nat) :
    ∃ u, t.executeFirstPasses n = .ok u ∧ u.statistics = t.statistics ∧ u.firstPassDone = true ∧
      (∀ k expected r, t.parser.getRecord k expected = .ok r →
        u.parser.getRecord k expected = .ok ⟨r.base, (List.replicate (n + 1) r.children).flatten⟩) ∧
      (∀ k expected e, t.parser.getRecord k expected = .error e → u.parser.getRecord k expected = .error e) ∧
      (∀ inUseOnly, (u.parser.fileRecords inUseOnly).err = (t.parser.fileRecords inUseOnly).err ∧
        (u.parser.fileRecords inUseOnly).items =
          (t.parser.fileRecords inUseOnly).items.map fun r => ⟨r.base, (List.replicate (n + 1) r.children).flatten⟩) := by
  obtain ⟨hrun, hl⟩ := executeFirstPasses_eq file t h n
  refine ⟨_, hrun, rfl, rfl, fun k expected r hr => ?_, fun k expected e he => ?_, fun inUseOnly => ?_⟩
  · show (withCopies t.parser (n + 1)).getRecord k expected = _
    rw [getRecord_withCopies hl, hr]
    rfl
  · show (withCopies t.parser (n + 1)).getRecord k expected = _
    rw [getRecord_withCopies hl, he]
    rfl
  · show (fileRecordsLoop (withCopies t.parser (n + 1)) inUseOnly 0).err = _ ∧ (fileRecordsLoop (withCopies t.parser (n + 1)) inUseOnly 0).items = _
    rw [fileRecordsLoop_withCopies hl]
    exact ⟨rfl, rfl⟩

end Verif.Props
