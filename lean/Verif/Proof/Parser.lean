/-
Lemmas about `MasterFileTableParser`: the first pass, the lookup by number, paths.
-/
import Verif.Spec.Parser
import Verif.Proof.FileRecordSegmentInit
import Verif.Props.C22_C24
import Verif.Basic.Bits
import Verif.Basic.Pigeonhole
namespace Verif.MFT
open Verif.Attributes Verif.Spec.Parser Verif.Props

/-! ### The first pass -/

theorem base_eq (f : FileRecordSegment) : f.baseFileRecordSegment = baseOf f := rfl
theorem flags_eq (f : FileRecordSegment) : f.flags = flagsOf f := rfl
theorem sequence_eq (f : FileRecordSegment) : f.sequenceNumber = sequenceOf f := rfl

theorem cacheGet_cacheAdd (cache : List (Nat × List Nat)) (key child ref : Nat) :
    cacheGet (cacheAdd cache key child) ref =
      if ref = key then some ((cacheGet cache key).getD [] ++ [child]) else cacheGet cache ref := by
  unfold cacheAdd
  by_cases hany : cache.any (·.1 == key) = true
  · rw [if_pos hany]
    unfold cacheGet
    induction cache with
    | nil => simp at hany
    | cons x xs ih =>
      rw [List.map_cons]
      by_cases hx : x.1 = key
      · have hb : (x.1 == key) = true := by simpa using hx
        rw [if_pos hb]
        by_cases hr : ref = key
        · subst hr; simp [hx]
        · have h1 : (x.1 == ref) = false := by simp; omega
          have hrest : ∀ l : List (Nat × List Nat), (l.map fun p => if (p.1 == key) = true then (p.1, p.2 ++ [child]) else p).find? (·.1 == ref) =
              l.find? (·.1 == ref) := by
            intro l
            induction l with
            | nil => rfl
            | cons y ys ih =>
              rw [List.map_cons]
              by_cases hy : y.1 = key
              · rw [if_pos (by simpa using hy), List.find?_cons_of_neg (by simp; omega), List.find?_cons_of_neg (by simp; omega), ih]
              · rw [if_neg (by simpa using hy)]
                by_cases hyr : y.1 = ref
                · rw [List.find?_cons_of_pos (by simpa using hyr), List.find?_cons_of_pos (by simpa using hyr)]
                · rw [List.find?_cons_of_neg (by simpa using hyr), List.find?_cons_of_neg (by simpa using hyr), ih]
          rw [if_neg hr, List.find?_cons_of_neg (by simp [h1]), List.find?_cons_of_neg (by simp [h1]), hrest]
      · have hb : ¬ (x.1 == key) = true := by simpa using hx
        have hany' : xs.any (·.1 == key) = true := by simpa [hx] using hany
        rw [if_neg hb]
        by_cases hr : x.1 = ref
        · rw [List.find?_cons_of_pos (by simpa using hr), if_neg (by omega), List.find?_cons_of_pos (by simpa using hr)]
        · rw [List.find?_cons_of_neg (by simpa using hr), ih hany']
          by_cases hk : ref = key
          · rw [if_pos hk, if_pos hk, List.find?_cons_of_neg (by simpa using hx)]
          · rw [if_neg hk, if_neg hk, List.find?_cons_of_neg (by simpa using hr)]
  · rw [if_neg hany]
    have hnone : cache.find? (·.1 == key) = none := by
      rw [List.find?_eq_none]; intro x hx hxk; exact hany (List.any_eq_true.2 ⟨x, hx, hxk⟩)
    unfold cacheGet
    rw [List.find?_append]
    by_cases hr : ref = key
    · subst hr; rw [hnone, if_pos rfl]; simp
    · rw [if_neg hr, List.find?_cons_of_neg (by simp; omega)]; simp

theorem cacheAdd_nodup (cache : List (Nat × List Nat)) (key child : Nat) (h : (cache.map (·.1)).Nodup) :
    ((cacheAdd cache key child).map (·.1)).Nodup := by
  unfold cacheAdd
  split
  · rw [List.map_map]
    have : (Prod.fst ∘ fun p : Nat × List Nat => if (p.1 == key) = true then (p.1, p.2 ++ [child]) else p) = Prod.fst := by
      funext p; simp only [Function.comp]; split <;> rfl
    rw [this]; exact h
  · rename_i hany
    rw [List.map_append, List.nodup_append]
    refine ⟨h, by simp, ?_⟩
    intro a ha b hb
    simp only [List.map_cons, List.map_nil, List.mem_singleton] at hb
    subst hb
    intro he; subst he
    obtain ⟨x, hx, hxa⟩ := List.mem_map.1 ha
    exact hany (List.any_eq_true.2 ⟨x, hx, by simpa using hxa⟩)

/-- A list as the value of a dictionary without empty lists. -/
def optList (l : List Nat) : Option (List Nat) := if l = [] then none else some l

/-- Is segment `k` a child of `ref`? -/
def isChild (file : Bytes) (size ref k : Nat) : Bool :=
  match segmentAt file size k with
  | some f => baseOf f != 0 && baseOf f == ref
  | none => false

theorem childrenOf_eq (file : Bytes) (size ref : Nat) :
    childrenOf file size ref = (List.range (file.length / size)).filter (isChild file size ref) := rfl

/-- How many of the first `n` segments are valid, and how many of these are not base segments. -/
def validCount (file : Bytes) (size n : Nat) : Nat := ((List.range n).filter fun k => (segmentAt file size k).isSome).length
def childCount (file : Bytes) (size n : Nat) : Nat :=
  ((List.range n).filter fun k => (segmentAt file size k).any fun f => baseOf f != 0).length

theorem isFrsExc_init {buf : Bytes} {s : Option Nat} {e : Exc} (h : FileRecordSegment.init buf true s = .error e) : isFrsExc e = true := by
  rcases init_error h with rfl | ⟨rfl, -⟩ <;> rfl

theorem isMftExc_init {buf : Bytes} {s : Option Nat} {e : Exc} (h : FileRecordSegment.init buf true s = .error e) : isMftExc e = true := by
  rcases init_error h with rfl | ⟨rfl, -⟩ <;> rfl

theorem firstPassLoop_spec (file : Bytes) (size : Nat) (hs : 0 < size) (i : Nat) (cache : List (Nat × List Nat)) (cnt ccnt : Nat)
    (hi : i ≤ file.length / size) (hnd : (cache.map (·.1)).Nodup)
    (hc : ∀ ref, cacheGet cache ref = optList ((List.range i).filter (isChild file size ref)))
    (hcnt : cnt = validCount file size i) (hccnt : ccnt = childCount file size i) :
    ∃ cache', firstPassLoop file size i cache cnt ccnt =
        .ok (cache', validCount file size (file.length / size), childCount file size (file.length / size)) ∧
      (cache'.map (·.1)).Nodup ∧ ∀ ref, cacheGet cache' ref = optList (childrenOf file size ref) := by
  have stop : file.length / size ≤ i → ∃ cache', (Except.ok (cache, cnt, ccnt) : Except Exc _) =
        .ok (cache', validCount file size (file.length / size), childCount file size (file.length / size)) ∧
      (cache'.map (·.1)).Nodup ∧ ∀ ref, cacheGet cache' ref = optList (childrenOf file size ref) := by
    intro hle
    have he : i = file.length / size := by omega
    subst he
    exact ⟨cache, by rw [hcnt, hccnt], hnd, fun ref => by rw [hc, childrenOf_eq]⟩
  unfold firstPassLoop
  by_cases hlt : i * size < file.length ∧ 0 < size
  · rw [if_pos hlt]
    dsimp only
    have hl := slice_length file (i * size) (i * size + size)
    by_cases hb : (slice file (i * size) (i * size + size)).length ≠ size
    · rw [if_pos hb]
      apply stop
      have : file.length < (i + 1) * size := by rw [Nat.add_mul]; omega
      exact Nat.le_of_lt_succ ((Nat.div_lt_iff_lt_mul hs).2 this)
    · rw [if_neg hb]
      have hi' : i + 1 ≤ file.length / size := by
        rw [Nat.le_div_iff_mul_le hs, Nat.add_mul]; omega
      have hdec : file.length - (i + 1) * size < file.length - i * size := by rw [Nat.add_mul]; omega
      cases hinit : FileRecordSegment.init (slice file (i * size) (i * size + size)) true (some i) with
      | error e =>
        have hseg : segmentAt file size i = none := by unfold segmentAt; rw [hinit]; rfl
        dsimp only
        rw [if_pos (isFrsExc_init hinit)]
        apply firstPassLoop_spec file size hs (i + 1) cache cnt ccnt hi' hnd
        · intro ref
          rw [hc, List.range_succ, List.filter_append]
          simp [isChild, hseg]
        · unfold validCount; rw [List.range_succ, List.filter_append]; simp [hseg, hcnt, validCount]
        · unfold childCount; rw [List.range_succ, List.filter_append]; simp [hseg, hccnt, childCount]
      | ok f =>
        have hseg : segmentAt file size i = some f := by unfold segmentAt; rw [hinit]; rfl
        dsimp only
        by_cases hbase : f.isBaseFileRecordSegment = true
        · rw [if_pos hbase]
          have h0 : baseOf f = 0 := by unfold FileRecordSegment.isBaseFileRecordSegment at hbase; simpa [base_eq] using hbase
          apply firstPassLoop_spec file size hs (i + 1) cache (cnt + 1) ccnt hi' hnd
          · intro ref
            rw [hc, List.range_succ, List.filter_append]
            simp [isChild, hseg, h0]
          · unfold validCount; rw [List.range_succ, List.filter_append]; simp [hseg, hcnt, validCount]
          · unfold childCount; rw [List.range_succ, List.filter_append]; simp [hseg, hccnt, childCount, h0]
        · rw [if_neg hbase]
          have h0 : baseOf f ≠ 0 := by unfold FileRecordSegment.isBaseFileRecordSegment at hbase; simpa [base_eq] using hbase
          apply firstPassLoop_spec file size hs (i + 1) _ (cnt + 1) (ccnt + 1) hi' (cacheAdd_nodup _ _ _ hnd)
          · intro ref
            rw [base_eq, cacheGet_cacheAdd, hc, hc, List.range_succ, List.filter_append]
            by_cases hr : ref = baseOf f
            · subst hr
              rw [if_pos rfl]
              have : [i].filter (isChild file size (baseOf f)) = [i] := by simp [isChild, hseg, h0]
              rw [this]
              unfold optList
              split
              · next he => rw [he]; simp
              · simp
            · rw [if_neg hr]
              have : [i].filter (isChild file size ref) = [] := by
                simp [isChild, hseg, h0]; exact fun h => hr h.symm
              rw [this, List.append_nil]
          · unfold validCount; rw [List.range_succ, List.filter_append]; simp [hseg, hcnt, validCount]
          · unfold childCount; rw [List.range_succ, List.filter_append]; simp [hseg, hccnt, childCount, h0]
  · rw [if_neg hlt]
    apply stop
    have : file.length ≤ i * size := by omega
    calc file.length / size ≤ i * size / size := Nat.div_le_div_right this
      _ = i := Nat.mul_div_cancel _ hs
termination_by file.length - i * size

/-! ### Lookup by number -/

/-- A parser whose first pass has been made. -/
structure Parser.Loaded (p : Parser) : Prop where
  size : p.size = 1024 ∨ p.size = 4096
  keys : (p.cache.map (·.1)).Nodup
  cache : ∀ ref, cacheGet p.cache ref = optList (childrenOf p.file p.size ref)

theorem Parser.init_loaded {file : Bytes} {p : Parser} (h : Parser.init file true = .ok p) : p.file = file ∧ p.Loaded := by
  unfold Parser.init at h
  obtain ⟨-, h⟩ := of_ite_error h
  dsimp only at h
  obtain ⟨-, h⟩ := of_ite_error h
  obtain ⟨hsz, h⟩ := of_ite_error h
  have hsz := mem_sizes.1 (Decidable.not_not.1 hsz)
  generalize leNat (slice file 28 32) = size at *
  split at h
  · cases h
  split at h
  · cases h
  rw [if_pos rfl] at h
  obtain ⟨cache', e1, e2, e3⟩ := firstPassLoop_spec file size (by omega) 0 [] 0 0 (Nat.zero_le _) (by simp) (fun ref => rfl) rfl rfl
  rw [e1] at h
  cases h
  exact ⟨rfl, hsz, e2, e3⟩

theorem getSegment_iff {p : Parser} (hs : 0 < p.size) {n : Nat} {f : FileRecordSegment} :
    p.getSegment n = .ok f ↔ segmentAt p.file p.size n = some f := by
  unfold Parser.getSegment segmentAt
  by_cases h : n * p.size > p.file.length
  · rw [if_pos h]
    have hnil : slice p.file (n * p.size) (n * p.size + p.size) = [] := by
      apply List.eq_nil_of_length_eq_zero; rw [slice_length]; omega
    rw [hnil]
    have : FileRecordSegment.init [] true (some n) = .error .FileRecordSegmentException := by
      unfold FileRecordSegment.init
      rw [if_pos (by decide)]
    rw [this]
    simp [Except.toOption]
  · rw [if_neg h]
    cases FileRecordSegment.init (slice p.file (n * p.size) (n * p.size + p.size)) true (some n) <;> simp [Except.toOption]

theorem getSegment_error {p : Parser} {n : Nat} {e : Exc} (h : p.getSegment n = .error e) : isMftExc e = true := by
  unfold Parser.getSegment at h
  rcases error_of_ite h with rfl | ⟨-, h⟩
  · rfl
  · exact isMftExc_init h

theorem inUse_iff (f : FileRecordSegment) : f.isInUse = (flagsOf f).testBit 0 := by
  unfold FileRecordSegment.isInUse
  rw [flags_eq]
  have := and_two_pow_pos (flagsOf f) 0
  cases hb : (flagsOf f).testBit 0 <;> simp_all

theorem effective_eq (f : FileRecordSegment) : effectiveSequenceNumber f = knownSequence f := by
  unfold effectiveSequenceNumber knownSequence
  rw [inUse_iff, sequence_eq]
  by_cases h : (flagsOf f).testBit 0 = true
  · rw [if_pos h, if_pos h]
  · rw [if_neg h, if_neg h]
    repeat' split
    all_goals omega

theorem segmentAt_suggested {file : Bytes} {size n : Nat} {f : FileRecordSegment} (h : segmentAt file size n = some f) :
    f.suggestedMftNumber = some n := by
  unfold segmentAt at h
  cases hi : FileRecordSegment.init (slice file (n * size) (n * size + size)) true (some n) with
  | error e => rw [hi] at h; cases h
  | ok g =>
    rw [hi] at h
    cases h
    exact (init_ok hi).2.2.2.2.2.2.1

theorem mftNumber_eq {f : FileRecordSegment} {n : Nat} (h : f.suggestedMftNumber = some n) :
    f.masterFileTableNumber = some (if f.shortVersion then n else u16 f.data 42 * 2 ^ 32 + u32 f.data 44) := by
  unfold FileRecordSegment.masterFileTableNumber
  split
  · exact h
  · rw [shiftLeft_or_of_lt (u32_lt _ _)]

theorem loadChildren_ok {p : Parser} (hs : 0 < p.size) : ∀ (ks : List Nat), (∀ k ∈ ks, (segmentAt p.file p.size k).isSome) →
    p.loadChildren ks = .ok (ks.filterMap (segmentAt p.file p.size))
  | [], _ => rfl
  | k :: ks, h => by
    obtain ⟨f, hf⟩ := Option.isSome_iff_exists.1 (h k (List.mem_cons_self ..))
    rw [Parser.loadChildren, (getSegment_iff hs).2 hf, loadChildren_ok hs ks (fun k hk => h k (List.mem_cons_of_mem _ hk)),
      List.filterMap_cons, hf]

theorem childrenOf_isSome {file : Bytes} {size ref k : Nat} (h : k ∈ childrenOf file size ref) : (segmentAt file size k).isSome := by
  rw [childrenOf_eq] at h
  have := (List.mem_filter.1 h).2
  unfold isChild at this
  split at this
  · next hs => rw [hs]; rfl
  · cases this

theorem assemble_eq {p : Parser} (hp : p.Loaded) {n : Nat} {f : FileRecordSegment} (hf : f.suggestedMftNumber = some n) :
    p.assemble f = .ok ⟨f, (childrenOf p.file p.size (ownReference f n)).filterMap (segmentAt p.file p.size)⟩ := by
  have hs : 0 < p.size := by have := hp.size; omega
  unfold Parser.assemble
  rw [mftNumber_eq hf]
  dsimp only
  rw [effective_eq, hp.cache]
  show (match optList (childrenOf p.file p.size (ownReference f n)) with | none => _ | some ns => _) = _
  unfold optList
  by_cases h : childrenOf p.file p.size (ownReference f n) = []
  · rw [if_pos h, h]; rfl
  · rw [if_neg h]
    dsimp only
    rw [loadChildren_ok hs _ (fun k hk => childrenOf_isSome hk)]

theorem isBase_iff (f : FileRecordSegment) : f.isBaseFileRecordSegment = true ↔ baseOf f = 0 := by
  unfold FileRecordSegment.isBaseFileRecordSegment; simp [base_eq]

/-- The lookup that does not follow child segments. -/
theorem getBaseRecord_iff {p : Parser} (hp : p.Loaded) {n : Nat} {expected : Option Nat} {r : FileRecord} :
    p.getBaseRecord n expected = .ok r ↔ ∃ s, IsRecord p.file p.size n s r ∧ (expected = none ∨ expected = some s) := by
  have hs : 0 < p.size := by have := hp.size; omega
  unfold Parser.getBaseRecord Parser.getRecordWith
  constructor
  · intro h
    cases hg : p.getSegment n with
    | error e => rw [hg] at h; cases h
    | ok f =>
      rw [hg] at h
      dsimp only at h
      have hseg := (getSegment_iff hs).1 hg
      by_cases hb : f.isBaseFileRecordSegment = true
      · rw [if_pos hb] at h
        obtain ⟨c1, h⟩ := of_ite_error h
        rw [assemble_eq hp (segmentAt_suggested hseg)] at h
        cases h
        rw [effective_eq] at c1
        refine ⟨knownSequence f, ⟨hseg, (isBase_iff f).1 hb, rfl, rfl⟩, ?_⟩
        by_cases h1 : expected = none
        · exact .inl h1
        · by_cases h2 : expected = some (knownSequence f)
          · exact .inr h2
          · exact absurd ⟨h1, h2⟩ c1
      · rw [if_neg hb] at h; cases h
  · rintro ⟨s, ⟨h1, h2, h3, h4⟩, h5⟩
    rw [(getSegment_iff hs).2 h1]
    dsimp only
    rw [if_pos ((isBase_iff _).2 h2), effective_eq, h3, if_neg (by
      rintro ⟨a, b⟩
      rcases h5 with h5 | h5
      · exact a h5
      · exact b h5), assemble_eq hp (segmentAt_suggested h1), ← h4]

theorem getBaseRecord_error {p : Parser} (hp : p.Loaded) {n : Nat} {expected : Option Nat} {e : Exc}
    (h : p.getBaseRecord n expected = .error e) : isMftExc e = true := by
  have hs : 0 < p.size := by have := hp.size; omega
  unfold Parser.getBaseRecord Parser.getRecordWith at h
  cases hg : p.getSegment n with
  | error e' => rw [hg] at h; cases h; exact getSegment_error hg
  | ok f =>
    rw [hg] at h
    dsimp only at h
    have hseg := (getSegment_iff hs).1 hg
    by_cases hb : f.isBaseFileRecordSegment = true
    · rw [if_pos hb] at h
      rcases error_of_ite h with rfl | ⟨-, h⟩
      · rfl
      · rw [assemble_eq hp (segmentAt_suggested hseg)] at h; cases h
    · rw [if_neg hb] at h; cases h; rfl

theorem decode_ref (ref : Nat) : decodeFileRecordSegmentReference ref = (number ref, sequence ref) := by
  unfold decodeFileRecordSegmentReference number sequence
  rw [show (0xFFFFFFFFFFFF : Nat) = 2 ^ 48 - 1 by decide, and_mask, Nat.shiftRight_eq_div_pow]

/-- Which entry of the cache contains a segment. -/
theorem find_contains {p : Parser} (hp : p.Loaded) (n : Nat) :
    (∀ f, segmentAt p.file p.size n = some f → baseOf f ≠ 0 → n < p.file.length / p.size →
      ∃ l, p.cache.find? (fun e => e.2.contains n) = some (baseOf f, l)) ∧
    (∀ x, p.cache.find? (fun e => e.2.contains n) = some x → n < p.file.length / p.size ∧
      ∃ f, segmentAt p.file p.size n = some f ∧ baseOf f = x.1) := by
  have getmem : ∀ x ∈ p.cache, cacheGet p.cache x.1 = some x.2 := by
    intro x hx
    have : ∀ l : List (Nat × List Nat), (l.map (·.1)).Nodup → x ∈ l → (l.find? (·.1 == x.1)).map (·.2) = some x.2 := by
      intro l
      induction l with
      | nil => intro _ h; cases h
      | cons y ys ih =>
        intro hnd hm
        rw [List.map_cons, List.nodup_cons] at hnd
        rcases List.mem_cons.1 hm with rfl | hm
        · simp
        · have : y.1 ≠ x.1 := fun h => hnd.1 (by rw [h]; exact List.mem_map.2 ⟨x, hm, rfl⟩)
          rw [List.find?_cons_of_neg (by simpa using this)]
          exact ih hnd.2 hm
    exact this _ hp.keys hx
  have memOf : ∀ x, p.cache.find? (fun e => e.2.contains n) = some x → n < p.file.length / p.size ∧
      ∃ f, segmentAt p.file p.size n = some f ∧ baseOf f = x.1 := by
    intro x hx
    have hm := List.mem_of_find?_eq_some hx
    have hc : n ∈ x.2 := by simpa using List.find?_some hx
    have hg := getmem x hm
    rw [hp.cache] at hg
    unfold optList at hg
    split at hg
    · cases hg
    · injection hg with hg
      rw [← hg, childrenOf_eq] at hc
      obtain ⟨h1, h2⟩ := List.mem_filter.1 hc
      refine ⟨List.mem_range.1 h1, ?_⟩
      unfold isChild at h2
      split at h2
      · next f hf => simp at h2; exact ⟨f, hf, h2.2⟩
      · cases h2
  refine ⟨fun f hf h0 hn => ?_, memOf⟩
  have hin : n ∈ childrenOf p.file p.size (baseOf f) := by
    rw [childrenOf_eq]
    exact List.mem_filter.2 ⟨List.mem_range.2 hn, by simp [isChild, hf, h0]⟩
  have hg := hp.cache (baseOf f)
  unfold optList at hg
  rw [if_neg (fun h => by rw [h] at hin; cases hin)] at hg
  cases hx : p.cache.find? (fun e => e.2.contains n) with
  | none =>
    exfalso
    unfold cacheGet at hg
    cases hfi : p.cache.find? (·.1 == baseOf f) with
    | none => rw [hfi] at hg; cases hg
    | some y =>
      rw [hfi] at hg
      simp only [Option.map_some, Option.some.injEq] at hg
      have := List.find?_eq_none.1 hx y (List.mem_of_find?_eq_some hfi)
      rw [hg] at this
      simp at this
      exact this hin
  | some x =>
    obtain ⟨-, g, hg1, hg2⟩ := memOf x hx
    rw [hf] at hg1
    cases hg1
    exact ⟨x.2, by rw [hg2]⟩

/-- The lookup that follows child segments to their base. -/
theorem getRecord_iff {p : Parser} (hp : p.Loaded) {n : Nat} {expected : Option Nat} {r : FileRecord} :
    p.getRecord n expected = .ok r ↔
      (∃ s, IsRecord p.file p.size n s r ∧ (expected = none ∨ expected = some s)) ∨
      (n < p.file.length / p.size ∧ ∃ f, segmentAt p.file p.size n = some f ∧ baseOf f ≠ 0 ∧
        (expected = none ∨ expected = some (knownSequence f)) ∧
        IsRecord p.file p.size (number (baseOf f)) (sequence (baseOf f)) r) := by
  have hs : 0 < p.size := by have := hp.size; omega
  cases hg : p.getSegment n with
  | error e =>
    unfold Parser.getRecord Parser.getRecordWith
    rw [hg]
    constructor
    · intro h; cases h
    · rintro (⟨s, ⟨h1, -⟩, -⟩ | ⟨-, f, h1, -⟩)
      · rw [(getSegment_iff hs).2 h1] at hg; cases hg
      · rw [(getSegment_iff hs).2 h1] at hg; cases hg
  | ok f =>
    have hseg := (getSegment_iff hs).1 hg
    by_cases hb : f.isBaseFileRecordSegment = true
    · have e1 : p.getRecord n expected = p.getBaseRecord n expected := by
        unfold Parser.getRecord Parser.getBaseRecord Parser.getRecordWith
        rw [hg]
        dsimp only
        rw [if_pos hb, if_pos hb]
      rw [e1, getBaseRecord_iff hp]
      constructor
      · exact .inl
      · rintro (h | ⟨-, g, h1, h2, -⟩)
        · exact h
        · rw [hseg] at h1; cases h1; exact absurd ((isBase_iff f).1 hb) h2
    · have hb0 : baseOf f ≠ 0 := fun h => hb ((isBase_iff f).2 h)
      unfold Parser.getRecord Parser.getRecordWith
      rw [hg]
      dsimp only
      rw [if_neg hb, effective_eq]
      constructor
      · intro h
        obtain ⟨c1, h⟩ := of_ite_error h
        cases hx : p.cache.find? (fun e => e.2.contains n) with
        | none => rw [hx] at h; cases h
        | some x =>
          rw [hx] at h
          dsimp only at h
          obtain ⟨hn, g, hg1, hg2⟩ := (find_contains hp n).2 x hx
          rw [hseg] at hg1; cases hg1
          rw [decode_ref, ← hg2] at h
          obtain ⟨s, hs1, hs2⟩ := (getBaseRecord_iff hp).1 h
          refine .inr ⟨hn, f, hseg, hb0, ?_, ?_⟩
          · by_cases h1 : expected = none
            · exact .inl h1
            · by_cases h2 : expected = some (knownSequence f)
              · exact .inr h2
              · exact absurd ⟨h1, h2⟩ c1
          · rcases hs2 with hs2 | hs2
            · cases hs2
            · cases hs2; exact hs1
      · rintro (⟨s, ⟨h1, h2, -⟩, -⟩ | ⟨hn, g, h1, -, h3, h4⟩)
        · rw [hseg] at h1; cases h1; exact absurd h2 hb0
        · rw [hseg] at h1; cases h1
          rw [if_neg (by
            rintro ⟨a, b⟩
            rcases h3 with h3 | h3
            · exact a h3
            · exact b h3)]
          obtain ⟨l, hl⟩ := (find_contains hp n).1 f hseg hb0 hn
          rw [hl]
          dsimp only
          rw [decode_ref]
          exact (getBaseRecord_iff hp).2 ⟨_, h4, .inr rfl⟩

theorem getRecord_error {p : Parser} (hp : p.Loaded) {n : Nat} {expected : Option Nat} {e : Exc}
    (h : p.getRecord n expected = .error e) : isMftExc e = true := by
  have hs : 0 < p.size := by have := hp.size; omega
  unfold Parser.getRecord Parser.getRecordWith at h
  cases hg : p.getSegment n with
  | error e' => rw [hg] at h; cases h; exact getSegment_error hg
  | ok f =>
    rw [hg] at h
    dsimp only at h
    have hseg := (getSegment_iff hs).1 hg
    split at h
    · rcases error_of_ite h with rfl | ⟨-, h⟩
      · rfl
      · rw [assemble_eq hp (segmentAt_suggested hseg)] at h; cases h
    · rcases error_of_ite h with rfl | ⟨-, h⟩
      · rfl
      · split at h
        · exact getBaseRecord_error hp h
        · cases h; rfl

end Verif.MFT
