/-
Property C34: the LSNs reported for a log file.
-/
import Verif.Spec.LogFile
import Verif.Props.C37
namespace Verif.Props
open Verif.LogFile Verif.Spec.Log

/-! ### The lookup of a record -/

theorem take_eq_slice (b : Bytes) (n : Nat) : b.take n = slice b 0 n := (slice_zero b n).symm

/-- The pages found are the valid pages. -/
theorem getPage_iff {p : Parser} (hs : p.logPageSize = 4096) (file : Bytes) {n : Nat} (hn : n * 4096 < 2 ^ 63) (buf : Bytes) :
    (∃ page, p.getPage file n = .ok (some page) ∧ page.buf = buf) ↔ LogPage p file n buf := by
  constructor
  · rintro ⟨page, h, rfl⟩
    obtain ⟨a1, a2, a3, a4, a5, a6, a7, a8, a9⟩ := getPage_some hs h
    refine ⟨by omega, a4, a5, page.endOfUsa, ?_, a9, ?_⟩
    · rw [show (n + 1) * 4096 = n * 4096 + 4096 by omega]; exact a1
    · rw [take_eq_slice]; simpa using a2
  · rintro ⟨h1, h2, h3, e, h4, h5, h6⟩
    rw [show (n + 1) * 4096 = n * 4096 + 4096 by omega] at h4
    refine ⟨⟨buf, slice file (n * 4096) (n * 4096 + 4096), e, p.logPageDataOffset, n⟩, getPage_of_init hs hn (by omega) ?_, rfl⟩
    unfold LogRecordPage.init
    rw [h4]
    dsimp only
    rw [take_eq_slice] at h6
    rw [if_neg (by
      simp only [List.mem_cons, List.not_mem_nil, or_false, Decidable.not_not]
      exact h6), if_neg (by omega)]

theorem lsn_position {p : Parser} {file : Bytes} (hp : Parser.init file = .ok p) (lsn n off : Nat) (ho : off < 4096) :
    n * 4096 + off = 8 * (lsn % 2 ^ (64 - p.sequenceNumberBits)) ↔ p.lsnToOffset lsn = (n, off) := by
  obtain ⟨-, -, h3, h4, h5, -⟩ := init_facts hp
  rw [lsnToOffset_eq p h4 h5 lsn, h3]
  constructor
  · intro h; rw [← h]; congr 1 <;> omega
  · intro h
    have h1 := congrArg Prod.fst h
    have h2 := congrArg Prod.snd h
    dsimp only at h1 h2
    omega

/-- The lookup of a record finds what the specification says. -/
theorem recordOf_iff {file0 : Bytes} {p : Parser} (hp : Parser.init file0 = .ok p) (file : Bytes) (hsize : file.length < 2 ^ 63)
    (lsn : Nat) (r : Bytes) : p.recordOf file lsn = .ok (some r) ↔ HasRecord p file lsn r := by
  obtain ⟨-, -, hs, hb1, hb2, h48⟩ := init_facts hp
  constructor
  · intro h
    obtain ⟨h0, page, h1, h2⟩ := recordOf_some h
    obtain ⟨a1, a2, a3, a4, a5, a6, a7, a8, a9⟩ := getPage_some hs h1
    obtain ⟨b1, b2, b3, b4, b5⟩ := recordAt_ok h2
    have hoff : (p.lsnToOffset lsn).2 < 4096 := by omega
    refine ⟨(p.lsnToOffset lsn).1, (p.lsnToOffset lsn).2, page.buf, h0, hoff, (lsn_position hp _ _ _ hoff).mpr rfl, ?_, by omega, by omega, b3, b5⟩
    exact (getPage_iff hs file (by omega) _).mp ⟨page, h1, rfl⟩
  · rintro ⟨n, off, buf, h0, hoff, hpos, hpage, hlow, hfit, hh8, rfl⟩
    have hpos := (lsn_position hp _ _ _ hoff).mp hpos
    obtain ⟨page, h1, rfl⟩ := (getPage_iff hs file (by have := hpage.1; omega) _).mpr hpage
    obtain ⟨-, -, a3, -, -, a6, -⟩ := getPage_some hs h1
    refine recordOf_of (page := page) ?_ ?_ ?_
    · rw [hpos]; exact h0
    · rw [hpos]; exact h1
    · rw [hpos]; exact recordAt_of (by omega) h48 hh8 (by omega)

theorem valid_iff {file0 : Bytes} {p : Parser} (hp : Parser.init file0 = .ok p) (file : Bytes) (hsize : file.length < 2 ^ 63)
    (lsn : Nat) : p.Valid file lsn ↔ InLog p file lsn := by
  unfold Parser.Valid InLog
  constructor
  · rintro ⟨r, h1, h2⟩; exact ⟨r, (recordOf_iff hp file hsize lsn r).mp h1, h2⟩
  · rintro ⟨r, h1, h2⟩; exact ⟨r, (recordOf_iff hp file hsize lsn r).mpr h1, h2⟩

/-! ### What is collected is in the log -/

theorem areaLsnsLoop_keeps {p : Parser} {file : Bytes} (hf : Fits p file) {fuel : Nat} : ∀ {todo lsns lsns' : List Nat},
    p.areaLsnsLoop file fuel todo lsns = some (.ok lsns') → lsns.Nodup → (∀ x ∈ lsns, p.Valid file x) →
    lsns'.Nodup ∧ (∀ x ∈ lsns', p.Valid file x) ∧ (∀ x ∈ lsns, x ∈ lsns') ∧ ∀ x ∈ todo, p.Valid file x → x ∈ lsns'
  | [], _, _, h, h1, h2 => by cases h; exact ⟨h1, h2, fun _ hx => hx, fun x hx => by cases hx⟩
  | lsn :: rest, lsns, lsns', h, h1, h2 => by
    unfold Parser.areaLsnsLoop at h
    split at h
    · cases h
    · rename_i hr
      obtain ⟨a1, a2, a3, a4⟩ := areaLsnsLoop_keeps hf h h1 h2
      refine ⟨a1, a2, a3, fun x hx hv => ?_⟩
      rcases List.mem_cons.mp hx with rfl | hx
      · obtain ⟨r, hr', -⟩ := hv
        rw [hr] at hr'; cases hr'
      · exact a4 x hx hv
    · rename_i r hr
      split at h
      · rename_i hlsn
        have hv : p.Valid file lsn := ⟨r, hr, hlsn.symm⟩
        split at h
        · cases h
        · cases h
        rename_i l1 w1
        split at h
        · cases h
        · cases h
        rename_i l2 w2
        split at h
        · cases h
        · cases h
        rename_i l3 w3
        obtain ⟨b1, b2, b3⟩ := walk_keeps (P := p.Valid file) (fun _ _ => findNextLsn_valid hf) w1 (setAdd_nodup h1) (by
          intro x hx
          rcases mem_setAdd.mp hx with rfl | hx
          · exact hv
          · exact h2 x hx)
        obtain ⟨c1, c2, c3⟩ := walk_keeps (P := p.Valid file) (fun _ _ hy => (findPreviousLsn_some hy).1) w2 b1 b2
        obtain ⟨d1, d2, d3⟩ := walk_keeps (P := p.Valid file) (fun _ _ hy => (findUndoNextLsn_some hy).1) w3 c1 c2
        obtain ⟨a1, a2, a3, a4⟩ := areaLsnsLoop_keeps hf h d1 d2
        refine ⟨a1, a2, fun x hx => a3 x (d3 x (c3 x (b3 x (mem_setAdd.mpr (.inr hx))))), fun x hx hvx => ?_⟩
        rcases List.mem_cons.mp hx with rfl | hx
        · exact a3 x (d3 x (c3 x (b3 x (mem_setAdd.mpr (.inl rfl)))))
        · exact a4 x hx hvx
      · rename_i hlsn
        obtain ⟨a1, a2, a3, a4⟩ := areaLsnsLoop_keeps hf h h1 h2
        refine ⟨a1, a2, a3, fun x hx hv => ?_⟩
        rcases List.mem_cons.mp hx with rfl | hx
        · obtain ⟨r', hr', ht⟩ := hv
          rw [hr] at hr'; cases hr'
          exact absurd ht.symm hlsn
        · exact a4 x hx hv

theorem pairwise_lt_of_le {l : List Nat} (h1 : l.Pairwise (fun a b : Nat => (a : Int) ≤ (b : Int))) (h2 : l.Nodup) : l.Pairwise (· < ·) := by
  have := h1.and h2
  exact this.imp fun ⟨a, b⟩ => by
    have : _ := a
    omega

/-- The stages of the second part of `collect_lsns`. -/
theorem extendLsns_ok {p : Parser} {file : Bytes} (hf : Fits p file) {order : List Nat → List Nat} (ho : ∀ l, (order l).Perm l)
    {fuel : Nat} {config config' : Config} {lsns lsns' : List Nat}
    (h : p.extendLsns file order fuel config lsns = some (.ok (config', lsns'))) (h1 : lsns.Nodup) (h2 : ∀ x ∈ lsns, p.Valid file x) :
    lsns'.Pairwise (· < ·) ∧ (∀ x ∈ lsns', p.Valid file x) ∧
    ∃ s1 s2 s3 new, walkAll (p.findNextLsn file) fuel (order lsns) lsns = some (.ok s1) ∧
      walkAll (fun _ => p.findPreviousLsn file) fuel (order s1) s1 = some (.ok s2) ∧
      walkAll (fun _ => p.findUndoNextLsn file) fuel (order s2) s2 = some (.ok s3) ∧
      p.areasLoop file fuel (order s3) config [] = some (.ok (config', new)) ∧
      (∀ x ∈ lsns, x ∈ s1) ∧ (∀ x ∈ s1, x ∈ s2) ∧ (∀ x ∈ s2, x ∈ s3) ∧ (∀ x ∈ s3, x ∈ lsns') ∧
      (∀ x ∈ new, p.Valid file x → x ∈ lsns') ∧ (∀ x ∈ s1, p.Valid file x) ∧ (∀ x ∈ s3, p.Valid file x) := by
  unfold Parser.extendLsns at h
  split at h
  · cases h
  · cases h
  rename_i s1 w1
  split at h
  · cases h
  · cases h
  rename_i s2 w2
  split at h
  · cases h
  · cases h
  rename_i s3 w3
  split at h
  · cases h
  · cases h
  rename_i cfg new w4
  split at h
  · cases h
  · cases h
  rename_i s4 w5
  cases h
  obtain ⟨a1, a2, a3⟩ := walkAll_keeps (P := p.Valid file) (fun _ _ _ => findNextLsn_valid hf) w1 h1 h2
  obtain ⟨b1, b2, b3⟩ := walkAll_keeps (P := p.Valid file) (fun _ _ _ hy => (findPreviousLsn_some hy).1) w2 a1 a2
  obtain ⟨c1, c2, c3⟩ := walkAll_keeps (P := p.Valid file) (fun _ _ _ hy => (findUndoNextLsn_some hy).1) w3 b1 b2
  obtain ⟨d1, d2, d3, d4⟩ := areaLsnsLoop_keeps hf w5 c1 c2
  refine ⟨?_, fun x hx => d2 x (mem_sortBy.mp hx), s1, s2, s3, new, w1, w2, w3, w4, a3, b3, c3, fun x hx => mem_sortBy.mpr (d3 x hx), ?_, a2, c2⟩
  · exact pairwise_lt_of_le (sortBy_sorted _ _) ((sortBy_perm _ _).nodup_iff.mpr d1)
  · intro x hx hv
    exact mem_sortBy.mpr (d4 x ((ho new).mem_iff.mpr hx) hv)

/-- The stages of `collect_lsns`. -/
theorem collectLsns_ok {p : Parser} {file : Bytes} {order : List Nat → List Nat} (ho : ∀ l, (order l).Perm l)
    {fuel : Nat} {config config' : Config} {lsns' : List Nat}
    (h : p.collectLsns file order fuel config = some (.ok (config', lsns'))) :
    ∃ first lsns, p.firstLsns file = .ok first ∧ p.extendLsns file order fuel config lsns = some (.ok (config', lsns')) ∧
      lsns.Nodup ∧ (∀ x ∈ lsns, p.Valid file x) ∧
      (∀ x, x ∈ first → p.Valid file x → x ∈ lsns) ∧
      (∀ x, x ∈ first → ∀ r, p.recordOf file x = .ok (some r) → ∀ y, (clientPreviousLsn r = y ∨ clientUndoNextLsn r = y) →
        p.Valid file y → y ∈ lsns) := by
  unfold Parser.collectLsns at h
  split at h
  · cases h
  rename_i first hfirst
  split at h
  · cases h
  rename_i l1 n1 hv
  split at h
  · cases h
  rename_i n2 hv2
  have hnd : (first.foldl setAdd []).Nodup := foldl_setAdd_nodup first List.nodup_nil
  have hmem : ∀ x, x ∈ first.foldl setAdd [] ↔ x ∈ first := fun x => by rw [mem_foldl_setAdd]; simp
  obtain ⟨a1, a2, a3, a4⟩ := validateLoop_ok hv hnd List.nodup_nil
  obtain ⟨b1, b2⟩ := validateNew_ok hv2 a2
  refine ⟨first, n2.foldl setAdd l1, hfirst, h, foldl_setAdd_nodup n2 a1, ?_, ?_, ?_⟩
  · intro x hx
    rcases (mem_foldl_setAdd n2).mp hx with hx | hx
    · obtain ⟨c1, c2⟩ := (b2 x).mp hx
      exact c2 ((ho n1).mem_iff.mpr c1)
    · obtain ⟨c1, c2⟩ := (a3 x).mp hx
      exact c2 ((ho _).mem_iff.mpr c1)
  · intro x hx hvx
    exact (mem_foldl_setAdd n2).mpr (.inr ((a3 x).mpr ⟨(hmem x).mpr hx, fun _ => hvx⟩))
  · intro x hx r hr y hy hvy
    refine (mem_foldl_setAdd n2).mpr (.inl ((b2 y).mpr ⟨(a4 y).mpr (.inr ⟨x, ?_, r, hr, hy⟩), fun _ => hvy⟩))
    exact (ho _).mem_iff.mpr ((hmem x).mpr hx)

theorem fits_of_init {file0 : Bytes} {p : Parser} (hp : Parser.init file0 = .ok p) {file : Bytes}
    (hfit : file.length ≤ 8 * 2 ^ (64 - p.sequenceNumberBits)) : Fits p file := by
  obtain ⟨-, -, h3, h4, h5, -⟩ := init_facts hp
  exact ⟨h3, h4, h5, hfit⟩

/-- C34: every LSN collected belongs to a record of the log that carries it at the position it encodes,
and the list is strictly increasing: for every parser, every contents of the log file that the position
bits of an LSN can address, every iteration order of the sets and every number of steps. -/
theorem C34_valid (file0 : Bytes) (p : Parser) (hp : Parser.init file0 = .ok p) (file : Bytes) (hsize : file.length < 2 ^ 63)
    (hfit : file.length ≤ 8 * 2 ^ (64 - p.sequenceNumberBits))
    (order : List Nat → List Nat) (ho : ∀ l, (order l).Perm l) (fuel : Nat) (config config' : Config) (lsns : List Nat)
    (h : p.collectLsns file order fuel config = some (.ok (config', lsns))) :
    lsns.Pairwise (· < ·) ∧ ∀ lsn ∈ lsns, InLog p file lsn := by
  obtain ⟨first, l, -, he, h1, h2, -, -⟩ := collectLsns_ok ho h
  obtain ⟨a1, a2, -⟩ := extendLsns_ok (fits_of_init hp hfit) ho he h1 h2
  exact ⟨a1, fun lsn hl => (valid_iff hp file hsize lsn).mp (a2 lsn hl)⟩

/-! ### The collection ends -/

theorem findNextLsn_lt {p : Parser} {file : Bytes} {outer cur y : Nat} (h : p.findNextLsn file outer cur = .ok (some y)) : y < 2 ^ 64 := by
  have hc : ∀ page o l, p.candidateOn page o l = .ok (some y) → y < 2 ^ 64 := by
    intro page o l h
    obtain ⟨rfl, r, -, ht⟩ := candidateOn_some h
    rw [← ht]; exact u64_lt r 0
  have hc' : ∀ n o l, p.candidate file n o l = .ok (some y) → y < 2 ^ 64 := by
    intro n o l h
    obtain ⟨page, -, h⟩ := candidate_some h
    exact hc _ _ _ h
  have ht : ∀ s m o, p.nextTwoTries file s m o = .ok (some y) → y < 2 ^ 64 := by
    intro s m o h
    unfold Parser.nextTwoTries at h
    rcases orElse_some h with h | ⟨-, h⟩ <;> exact hc' _ _ _ h
  unfold Parser.findNextLsn at h
  split at h
  · cases h
  split at h
  · cases h
  · cases h
  split at h
  · split at h <;> cases h
  split at h
  · cases h
  split at h
  · unfold Parser.nextAfterShort at h
    dsimp only at h
    rcases orElse_some h with h | ⟨-, h⟩
    · exact hc _ _ _ h
    · split at h
      · split at h
        · cases h
        · exact hc' _ _ _ h
      · exact hc' _ _ _ h
  · unfold Parser.nextAfterLong at h
    dsimp only at h
    split at h
    · split at h
      · cases h
      · exact ht _ _ _ h
    · exact ht _ _ _ h

theorem getClientData_ends {file0 : Bytes} {p : Parser} (hp : Parser.init file0 = .ok p) (hsize : file0.length < 2 ^ 63)
    (file : Bytes) (fuel : Nat) (hfuel : 2 ^ 32 < fuel) (lsn : Nat) : ∃ r, p.getClientData file fuel lsn = some r := by
  obtain ⟨-, -, hs, -⟩ := init_facts hp
  cases hpage : p.getPage file (p.lsnToOffset lsn).1 with
  | error e => exact ⟨.error e, by unfold Parser.getClientData; rw [hpage]⟩
  | ok o =>
    cases o with
    | none => exact ⟨.error .AttributeError, by unfold Parser.getClientData; rw [hpage]⟩
    | some page =>
      cases hr : page.recordAt (p.lsnToOffset lsn).2 p.recordHeaderLength with
      | error e => exact ⟨.error e, by unfold Parser.getClientData; rw [hpage]; dsimp only; rw [hr]⟩
      | ok r =>
        obtain ⟨-, -, a3, -, -, a6, -⟩ := getPage_some hs hpage
        obtain ⟨b1, b2, b3, b4, -⟩ := recordAt_ok hr
        obtain ⟨d, hd, -⟩ := C37_data file0 file p hp hsize lsn page hpage (by omega) b3 (by omega) fuel hfuel
        exact ⟨_, hd⟩

theorem areasLoop_ends {file0 : Bytes} {p : Parser} (hp : Parser.init file0 = .ok p) (hsize : file0.length < 2 ^ 63)
    (file : Bytes) (fuel : Nat) (hfuel : 2 ^ 32 < fuel) : ∀ (todo : List Nat) (config : Config) (new : List Nat),
    ∃ r, p.areasLoop file fuel todo config new = some r
  | [], config, new => ⟨_, rfl⟩
  | lsn :: rest, config, new => by
    unfold Parser.areasLoop
    obtain ⟨r, hr⟩ := getClientData_ends hp hsize file fuel hfuel lsn
    rw [hr]
    cases r with
    | error e => exact ⟨_, rfl⟩
    | ok d =>
      dsimp only
      split
      · split
        · exact areasLoop_ends hp hsize file fuel hfuel ..
        · exact areasLoop_ends hp hsize file fuel hfuel ..
        · split
          · exact areasLoop_ends hp hsize file fuel hfuel ..
          · exact ⟨_, rfl⟩
      · exact areasLoop_ends hp hsize file fuel hfuel ..

theorem areaLsnsLoop_ends {p : Parser} {file : Bytes} {fuel : Nat} (hfuel : 2 ^ 64 < fuel) : ∀ {todo lsns : List Nat},
    lsns.Nodup → (∀ x ∈ lsns, x < 2 ^ 64) → ∃ r, p.areaLsnsLoop file fuel todo lsns = some r
  | [], _, _, _ => ⟨_, rfl⟩
  | lsn :: rest, lsns, h1, h2 => by
    unfold Parser.areaLsnsLoop
    split
    · exact ⟨_, rfl⟩
    · exact areaLsnsLoop_ends hfuel h1 h2
    · rename_i r hr
      split
      · rename_i hlsn
        have hn1 := setAdd_nodup (x := lsn) h1
        have hb1 : ∀ x ∈ setAdd lsns lsn, x < 2 ^ 64 := by
          intro x hx
          rcases mem_setAdd.mp hx with rfl | hx
          · rw [hlsn]; exact u64_lt r 0
          · exact h2 x hx
        obtain ⟨r1, w1⟩ := walk_ends (bound := 2 ^ 64) (fuel := fuel) (fun _ _ => findNextLsn_lt (p := p) (file := file) (outer := lsn)) (cur := lsn)
          hn1 hb1 (by omega)
        rw [w1]
        cases r1 with
        | error e => exact ⟨_, rfl⟩
        | ok l1 =>
          dsimp only
          obtain ⟨c1, c2, -⟩ := walk_keeps (P := (· < 2 ^ 64)) (fun _ _ => findNextLsn_lt) w1 hn1 hb1
          obtain ⟨r2, w2⟩ := walk_ends (bound := 2 ^ 64) (fuel := fuel) (step := p.findPreviousLsn file) (fun _ _ hy => valid_lt (findPreviousLsn_some hy).1)
            (cur := lsn) c1 c2 (by omega)
          rw [w2]
          cases r2 with
          | error e => exact ⟨_, rfl⟩
          | ok l2 =>
            dsimp only
            obtain ⟨d1, d2, -⟩ := walk_keeps (P := (· < 2 ^ 64)) (fun _ _ hy => valid_lt (findPreviousLsn_some hy).1) w2 c1 c2
            obtain ⟨r3, w3⟩ := walk_ends (bound := 2 ^ 64) (fuel := fuel) (step := p.findUndoNextLsn file) (fun _ _ hy => valid_lt (findUndoNextLsn_some hy).1)
              (cur := lsn) d1 d2 (by omega)
            rw [w3]
            cases r3 with
            | error e => exact ⟨_, rfl⟩
            | ok l3 =>
              dsimp only
              obtain ⟨e1, e2, -⟩ := walk_keeps (P := (· < 2 ^ 64)) (fun _ _ hy => valid_lt (findUndoNextLsn_some hy).1) w3 d1 d2
              exact areaLsnsLoop_ends hfuel e1 e2
      · exact areaLsnsLoop_ends hfuel h1 h2

/-- C34: collecting the LSNs ends for every log file, even when the links between its records form
cycles. -/
theorem C34_terminates (file0 : Bytes) (p : Parser) (hp : Parser.init file0 = .ok p) (hsize : file0.length < 2 ^ 63) (file : Bytes)
    (order : List Nat → List Nat) (ho : ∀ l, (order l).Perm l) (fuel : Nat) (hfuel : 2 ^ 64 < fuel) (config : Config) :
    ∃ r, p.collectLsns file order fuel config = some r := by
  unfold Parser.collectLsns
  split
  · exact ⟨_, rfl⟩
  rename_i first hfirst
  split
  · exact ⟨_, rfl⟩
  rename_i l1 n1 hv
  split
  · exact ⟨_, rfl⟩
  rename_i n2 hv2
  have hnd : (first.foldl setAdd []).Nodup := foldl_setAdd_nodup first List.nodup_nil
  obtain ⟨a1, a2, a3, a4⟩ := validateLoop_ok hv hnd List.nodup_nil
  obtain ⟨b1, b2⟩ := validateNew_ok hv2 a2
  have hn0 := foldl_setAdd_nodup n2 a1
  have hb0 : ∀ x ∈ n2.foldl setAdd l1, x < 2 ^ 64 := by
    intro x hx
    rcases (mem_foldl_setAdd n2).mp hx with hx | hx
    · obtain ⟨c1, c2⟩ := (b2 x).mp hx
      exact valid_lt (c2 ((ho n1).mem_iff.mpr c1))
    · obtain ⟨c1, c2⟩ := (a3 x).mp hx
      exact valid_lt (c2 ((ho _).mem_iff.mpr c1))
  unfold Parser.extendLsns
  obtain ⟨r1, w1⟩ := walkAll_ends (step := p.findNextLsn file) hfuel (fun _ _ _ => findNextLsn_lt) (todo := order (n2.foldl setAdd l1)) hn0 hb0
  rw [w1]
  cases r1 with
  | error e => exact ⟨_, rfl⟩
  | ok s1 =>
    dsimp only
    obtain ⟨c1, c2, -⟩ := walkAll_keeps (P := (· < 2 ^ 64)) (fun _ _ _ => findNextLsn_lt) w1 hn0 hb0
    obtain ⟨r2, w2⟩ := walkAll_ends (step := fun _ => p.findPreviousLsn file) hfuel (fun _ _ _ hy => valid_lt (findPreviousLsn_some hy).1) (todo := order s1) c1 c2
    rw [w2]
    cases r2 with
    | error e => exact ⟨_, rfl⟩
    | ok s2 =>
      dsimp only
      obtain ⟨d1, d2, -⟩ := walkAll_keeps (P := (· < 2 ^ 64)) (fun _ _ _ hy => valid_lt (findPreviousLsn_some hy).1) w2 c1 c2
      obtain ⟨r3, w3⟩ := walkAll_ends (step := fun _ => p.findUndoNextLsn file) hfuel (fun _ _ _ hy => valid_lt (findUndoNextLsn_some hy).1) (todo := order s2) d1 d2
      rw [w3]
      cases r3 with
      | error e => exact ⟨_, rfl⟩
      | ok s3 =>
        dsimp only
        obtain ⟨e1, e2, -⟩ := walkAll_keeps (P := (· < 2 ^ 64)) (fun _ _ _ hy => valid_lt (findUndoNextLsn_some hy).1) w3 d1 d2
        obtain ⟨r4, w4⟩ := areasLoop_ends hp hsize file fuel (by omega) (order s3) config []
        rw [w4]
        cases r4 with
        | error e => exact ⟨_, rfl⟩
        | ok cn =>
          obtain ⟨cfg, new⟩ := cn
          dsimp only
          obtain ⟨r5, w5⟩ := areaLsnsLoop_ends (p := p) (file := file) hfuel (todo := order new) e1 e2
          rw [w5]
          cases r5 with
          | error e => exact ⟨_, rfl⟩
          | ok s4 => exact ⟨_, rfl⟩

/-! ### What is found -/

theorem unpackLE_val {n : Nat} {bs : Bytes} {v : Nat} (h : unpackLE n bs = .ok v) : v = leNat bs := by
  unfold unpackLE at h
  split at h <;> cases h
  rfl

theorem clientsLoop_items {area : Bytes} {o : Nat} : ∀ {n i : Nat}, (clientsLoop area o n i).err = none →
    (clientsLoop area o n i).items = (List.range' i n).map fun k => area.drop (k * 160 + o)
  | 0, i, _ => rfl
  | n + 1, i, h => by
    unfold clientsLoop at h ⊢
    split at h
    · cases h
    · rename_i c hc
      have hcc : c = area.drop (i * 160 + o) := by
        unfold clientRecord at hc
        split at hc
        · cases hc
        · obtain ⟨-, hc⟩ := of_ite_error hc
          cases hc; rfl
      rw [Gen.items_cons, clientsLoop_items h, List.range'_succ, List.map_cons, hcc]

theorem restartLsns_go {cs : List Bytes} : ∀ {l : List Nat}, restartPageLsns.go cs = .ok l →
    ∀ c ∈ cs, leNat (slice c 0 8) ∈ l ∧ leNat (slice c 8 16) ∈ l := by
  induction cs with
  | nil => intro l _ c hc; cases hc
  | cons c cs ih =>
    intro l h c' hc'
    unfold restartPageLsns.go at h
    split at h
    · rename_i a b ha hb
      split at h
      · cases h
      · rename_i rest hrest
        cases h
        rcases List.mem_cons.mp hc' with rfl | hc'
        · rw [unpackLE_val ha, unpackLE_val hb]
          exact ⟨List.mem_cons_self .., List.mem_cons_of_mem _ (List.mem_cons_self ..)⟩
        · obtain ⟨h1, h2⟩ := ih hrest c' hc'
          exact ⟨List.mem_cons_of_mem _ (List.mem_cons_of_mem _ h1), List.mem_cons_of_mem _ (List.mem_cons_of_mem _ h2)⟩
    · cases h
    · cases h

theorem restartPageLsns_named {page : Bytes} {l : List Nat} (h : restartPageLsns page = .ok l) {lsn : Nat}
    (hn : NamedByRestart page lsn) : lsn ∈ l := by
  unfold restartPageLsns at h
  split at h
  · cases h
  rename_i area harea
  split at h
  · cases h
  rename_i current hcur
  split at h
  · cases h
  rename_i rest hgo
  split at h
  · cases h
  rename_i herr
  cases h
  have ha : area = page.drop (leNat (slice page 24 26)) := by
    unfold getRestartArea restartArea at harea
    obtain ⟨_, -, harea⟩ := bind_ok harea
    obtain ⟨-, harea⟩ := of_ite_error harea
    obtain ⟨_, -, harea⟩ := bind_ok harea
    obtain ⟨_, -, harea⟩ := bind_ok harea
    obtain ⟨_, -, harea⟩ := bind_ok harea
    obtain ⟨-, harea⟩ := of_ite_error harea
    obtain ⟨-, harea⟩ := of_ite_error harea
    cases harea; rfl
  cases hn with
  | chkdsk => exact List.mem_cons_self ..
  | current =>
    rw [← ha, ← unpackLE_val hcur]
    exact List.mem_cons_of_mem _ (List.mem_cons_self ..)
  | client area' ha' k hk record hr field hf =>
    rw [← ha] at ha'
    subst ha'
    refine List.mem_cons_of_mem _ (List.mem_cons_of_mem _ ?_)
    unfold clients at herr hgo
    split at herr
    · cases herr
    rename_i n hn
    split at herr
    · cases herr
    rename_i o ho
    rw [hn] at hgo
    dsimp only at hgo
    rw [ho] at hgo
    dsimp only at hgo
    rw [clientsLoop_items herr] at hgo
    have hmem : record ∈ (List.range' 0 n).map fun k => area'.drop (k * 160 + o) := by
      rw [List.mem_map]
      refine ⟨k, ?_, ?_⟩
      · rw [List.mem_range'_1, unpackLE_val hn]; omega
      · rw [hr, unpackLE_val ho]
    obtain ⟨g1, g2⟩ := restartLsns_go hgo record hmem
    rcases hf with rfl | rfl
    · exact g1
    · exact g2

theorem pagesLoop_mem {p : Parser} {file : Bytes} : ∀ {n i : Nat} {l : List LogRecordPage}, p.pagesLoop file n i = .ok l →
    ∀ k page, i ≤ k → k < i + n → p.getPage file k = .ok (some page) → page ∈ l
  | 0, i, l, h => by intro k page h1 h2; omega
  | n + 1, i, l, h => by
    intro k page h1 h2 hp
    unfold Parser.pagesLoop at h
    split at h
    · cases h
    · rename_i hg
      by_cases hk : k = i
      · rw [hk, hg] at hp; cases hp
      · exact pagesLoop_mem h k page (by omega) (by omega) hp
    · rename_i pg hg
      split at h
      · cases h
      · rename_i rest hrest
        cases h
        by_cases hk : k = i
        · rw [hk, hg] at hp; cases hp; exact List.mem_cons_self ..
        · exact List.mem_cons_of_mem _ (pagesLoop_mem hrest k page (by omega) (by omega) hp)

theorem firstLsns_named {file0 : Bytes} {p : Parser} (hp : Parser.init file0 = .ok p) {file : Bytes} (hsize : file.length < 2 ^ 63)
    {first : List Nat} (h : p.firstLsns file = .ok first) {lsn : Nat} (hn : Named p file lsn) : lsn ∈ first := by
  obtain ⟨-, -, hs, -⟩ := init_facts hp
  unfold Parser.firstLsns at h
  split at h
  · cases h
  rename_i a ha
  split at h
  · cases h
  rename_i b hb
  split at h
  · cases h
  rename_i pages hpages
  cases h
  have hpage : ∀ n, 2 ≤ n → n < p.fileSize / 4096 → ∀ buf, LogPage p file n buf → ∃ page ∈ pages, page.buf = buf := by
    intro n h2 hn buf hl
    obtain ⟨page, h1, rfl⟩ := (getPage_iff hs file (by have := hl.1; omega) buf).mpr hl
    refine ⟨page, ?_, rfl⟩
    unfold Parser.allPages at hpages
    rw [hs] at hpages
    exact pagesLoop_mem hpages n page h2 (by omega) h1
  rw [List.mem_append, List.mem_append]
  cases hn with
  | restart1 page h1 _ hl => rw [h1] at ha; exact .inl (.inl (restartPageLsns_named ha hl))
  | restart2 page h1 _ hl => rw [h1] at hb; exact .inl (.inr (restartPageLsns_named hb hl))
  | lastLsn n h2 hn buf hl =>
    obtain ⟨page, hm, rfl⟩ := hpage n h2 hn buf hl
    exact .inr (List.mem_flatMap.mpr ⟨page, hm, List.mem_cons_self ..⟩)
  | lastEndLsn n h2 hn buf hl =>
    obtain ⟨page, hm, rfl⟩ := hpage n h2 hn buf hl
    exact .inr (List.mem_flatMap.mpr ⟨page, hm, List.mem_cons_of_mem _ (List.mem_cons_self ..)⟩)

theorem start_mem {file0 : Bytes} {p : Parser} (hp : Parser.init file0 = .ok p) {file : Bytes} (hsize : file.length < 2 ^ 63)
    {first lsns : List Nat} (h : p.firstLsns file = .ok first)
    (h1 : ∀ x, x ∈ first → p.Valid file x → x ∈ lsns)
    (h2 : ∀ x, x ∈ first → ∀ r, p.recordOf file x = .ok (some r) → ∀ y, (clientPreviousLsn r = y ∨ clientUndoNextLsn r = y) →
      p.Valid file y → y ∈ lsns) {lsn : Nat} (hs : Start p file lsn) : lsn ∈ lsns := by
  cases hs with
  | named _ hn hl => exact h1 _ (firstLsns_named hp hsize h hn) ((valid_iff hp file hsize _).mpr hl)
  | linked x hn r hr _ hy hl =>
    refine h2 x (firstLsns_named hp hsize h hn) r ((recordOf_iff hp file hsize x r).mpr hr) _ ?_ ((valid_iff hp file hsize _).mpr hl)
    rcases hy with rfl | rfl
    · exact .inl rfl
    · exact .inr rfl

theorem findPreviousLsn_of {file0 : Bytes} {p : Parser} (hp : Parser.init file0 = .ok p) {file : Bytes} (hsize : file.length < 2 ^ 63)
    {x : Nat} {r : Bytes} (hr : HasRecord p file x r) (hl : InLog p file (previousOf r)) :
    p.findPreviousLsn file x = .ok (some (previousOf r)) := by
  unfold Parser.findPreviousLsn
  rw [(recordOf_iff hp file hsize x r).mpr hr]
  exact linked_of ((valid_iff hp file hsize _).mpr hl)

theorem findUndoNextLsn_of {file0 : Bytes} {p : Parser} (hp : Parser.init file0 = .ok p) {file : Bytes} (hsize : file.length < 2 ^ 63)
    {x : Nat} {r : Bytes} (hr : HasRecord p file x r) (hl : InLog p file (undoNextOf r)) :
    p.findUndoNextLsn file x = .ok (some (undoNextOf r)) := by
  unfold Parser.findUndoNextLsn
  rw [(recordOf_iff hp file hsize x r).mpr hr]
  exact linked_of ((valid_iff hp file hsize _).mpr hl)

/-- The two later walks keep the set closed. -/
theorem closed_links {file0 : Bytes} {p : Parser} (hp : Parser.init file0 = .ok p) {file : Bytes} (hsize : file.length < 2 ^ 63)
    {order : List Nat → List Nat} (ho : ∀ l, (order l).Perm l) {fuel : Nat} {s1 s2 s3 : List Nat}
    (w2 : walkAll (fun _ => p.findPreviousLsn file) fuel (order s1) s1 = some (.ok s2))
    (w3 : walkAll (fun _ => p.findUndoNextLsn file) fuel (order s2) s2 = some (.ok s3))
    (h12 : ∀ x ∈ s1, x ∈ s2) (h23 : ∀ x ∈ s2, x ∈ s3) {S : Nat → Prop} (hS : ∀ x, S x → x ∈ s1) {lsn : Nat}
    (h : ByUndoNext p file (ByPrevious p file S) lsn) : lsn ∈ s3 := by
  have hprev : ∀ x, ByPrevious p file S x → x ∈ s2 := by
    intro x hx
    induction hx with
    | start x hx => exact h12 x (hS x hx)
    | step x _ r hr hl ih =>
      refine walkAll_closed (f := p.findPreviousLsn file) (fun _ _ _ _ => rfl) w2 (fun x hx => (ho s1).mem_iff.mp hx) x ?_ _ (findPreviousLsn_of hp hsize hr hl)
      by_cases hm : x ∈ s1
      · exact .inl ((ho s1).mem_iff.mpr hm)
      · exact .inr ⟨ih, hm⟩
  induction h with
  | start x hx => exact h23 x (hprev x hx)
  | step x _ r hr hl ih =>
    refine walkAll_closed (f := p.findUndoNextLsn file) (fun _ _ _ _ => rfl) w3 (fun x hx => (ho s2).mem_iff.mp hx) x ?_ _ (findUndoNextLsn_of hp hsize hr hl)
    by_cases hm : x ∈ s2
    · exact .inl ((ho s2).mem_iff.mpr hm)
    · exact .inr ⟨ih, hm⟩

/-- C34: nothing that is named is missed: every LSN that the restart pages or the log pages name and
that is in the log, and everything that is reached from there by links to previous records and then by
undo links, is in the list. -/
theorem C34_complete (file0 : Bytes) (p : Parser) (hp : Parser.init file0 = .ok p) (file : Bytes) (hsize : file.length < 2 ^ 63)
    (hfit : file.length ≤ 8 * 2 ^ (64 - p.sequenceNumberBits))
    (order : List Nat → List Nat) (ho : ∀ l, (order l).Perm l) (fuel : Nat) (config config' : Config) (lsns : List Nat)
    (h : p.collectLsns file order fuel config = some (.ok (config', lsns))) (lsn : Nat)
    (hr : ByUndoNext p file (ByPrevious p file (Start p file)) lsn) : lsn ∈ lsns := by
  obtain ⟨first, l, hf, he, h1, h2, h3, h4⟩ := collectLsns_ok ho h
  obtain ⟨-, -, s1, s2, s3, new, w1, w2, w3, -, a1, a2, a3, a4, -⟩ := extendLsns_ok (fits_of_init hp hfit) ho he h1 h2
  exact a4 lsn (closed_links hp hsize ho w2 w3 a2 a3 (fun x hx => a1 x (start_mem hp hsize hf h3 h4 hx)) hr)

/-! ### The records after the known ones -/

theorem valid_at {file0 : Bytes} {p : Parser} (hp : Parser.init file0 = .ok p) {file : Bytes} (hsize : file.length < 2 ^ 63)
    {y n o : Nat} (hl : InLog p file y) (ho : o < 4096) (hpos : n * 4096 + o = 8 * (y % 2 ^ (64 - p.sequenceNumberBits))) :
    y = p.offsetToLsn n o (y / 2 ^ (64 - p.sequenceNumberBits)) ∧ ∃ page r, p.getPage file n = .ok (some page) ∧
      page.recordAt o p.recordHeaderLength = .ok r ∧ thisLsn r = y := by
  obtain ⟨-, -, hs, -⟩ := init_facts hp
  obtain ⟨r, hr, ht⟩ := (valid_iff hp file hsize y).mpr hl
  obtain ⟨-, page, h1, h2⟩ := recordOf_some hr
  rw [(lsn_position hp y n o ho).mp hpos] at h1 h2
  have hlt : y % 2 ^ (64 - p.sequenceNumberBits) < 2 ^ (64 - p.sequenceNumberBits) := Nat.mod_lt _ (Nat.two_pow_pos _)
  refine ⟨?_, page, r, h1, h2, ht⟩
  rw [offsetToLsn_eq p _ _ _ (by rw [hs]; omega), hs, hpos, Nat.mul_div_cancel_left _ (by decide), Nat.mul_comm]
  exact (Nat.div_add_mod y _).symm

/-- At a position without a record of the lap nothing is found. -/
theorem candidateOn_none {file0 : Bytes} {p : Parser} (hp : Parser.init file0 = .ok p) {file : Bytes} (hsize : file.length < 2 ^ 63)
    (hfit : Fits p file) {n o seq : Nat} {page : LogRecordPage} (hpage : p.getPage file n = .ok (some page)) (h0 : n ≠ 0) (h8 : o % 8 = 0)
    (hno : ∀ z, InLog p file z → z / 2 ^ (64 - p.sequenceNumberBits) = seq → n * 4096 + o ≠ 8 * (z % 2 ^ (64 - p.sequenceNumberBits))) :
    p.candidateOn page o (p.offsetToLsn n o seq) = .ok none := by
  obtain ⟨-, -, hs, -, -, h48⟩ := init_facts hp
  obtain ⟨-, -, a3, -, -, a6, a7, -⟩ := getPage_some hs hpage
  cases hc : p.candidateOn page o (p.offsetToLsn n o seq) with
  | error e =>
    exfalso
    unfold Parser.candidateOn at hc
    split at hc
    · cases hc
    · rename_i e' he
      have : isLogFileException e' = true ∨ e' = .NotImplementedError ∧ p.recordHeaderLength < 48 := by
        unfold LogRecordPage.recordAt logRecordHeader at he
        rcases error_of_ite he with h | ⟨-, he⟩
        · rw [h]; exact .inl rfl
        · rcases error_of_ite he with h | ⟨hh, he⟩
          · by_cases h' : p.recordHeaderLength < 48
            · exact .inr ⟨h, h'⟩
            · rw [if_neg h'] at he
              rcases error_of_ite he with h | ⟨-, he⟩
              · rw [h]; exact .inl rfl
              · rcases error_of_ite he with h | ⟨-, he⟩
                · rw [h]; exact .inl rfl
                · cases he
          · rcases error_of_ite he with h | ⟨-, he⟩
            · rw [h]; exact .inl rfl
            · rcases error_of_ite he with h | ⟨-, he⟩
              · rw [h]; exact .inl rfl
              · cases he
      rcases this with h | ⟨-, h⟩
      · rw [if_pos h] at hc; cases hc
      · omega
  | ok r =>
    cases r with
    | none => rfl
    | some z =>
      exfalso
      have hv := candidate_valid hfit hpage h0 h8 hc
      obtain ⟨rfl, r, hr, -⟩ := candidateOn_some hc
      obtain ⟨-, -, -, b4, -⟩ := recordAt_ok hr
      have ho : o < 4096 := by omega
      have hpos := lsnToOffset_offsetToLsn hfit (seq := seq) ho h8 a7
      have := (lsn_position hp _ n o ho).mpr hpos
      refine hno _ ((valid_iff hp file hsize _).mp hv) ?_ this
      have := hfit.fits
      have hlt : (n * 4096 + o) / 8 < 2 ^ (64 - p.sequenceNumberBits) := by omega
      rw [offsetToLsn_eq p _ _ _ (by rw [hs]; omega), hs, Nat.mul_comm seq, Nat.mul_add_div (Nat.two_pow_pos _), Nat.div_eq_of_lt hlt, Nat.add_zero]

theorem orElse_first {a b : Except Exc (Option Nat)} {y : Nat} (h : a = .ok (some y)) : orElse a b = .ok (some y) := by rw [h]; rfl
theorem orElse_second {a b : Except Exc (Option Nat)} (h : a = .ok none) : orElse a b = b := by rw [h]; rfl

theorem candidate_hit {file0 : Bytes} {p : Parser} (hp : Parser.init file0 = .ok p) {file : Bytes} (hsize : file.length < 2 ^ 63)
    {y n o : Nat} (hl : InLog p file y) (ho : o < 4096) (hpos : n * 4096 + o = 8 * (y % 2 ^ (64 - p.sequenceNumberBits))) {seq : Nat}
    (hseq : y / 2 ^ (64 - p.sequenceNumberBits) = seq) : p.candidate file n o (p.offsetToLsn n o seq) = .ok (some y) := by
  obtain ⟨h1, page, r, h2, h3, h4⟩ := valid_at hp hsize hl ho hpos
  rw [candidate_of h2, ← hseq, ← h1]
  exact candidateOn_of h3 h4

theorem candidate_miss {file0 : Bytes} {p : Parser} (hp : Parser.init file0 = .ok p) {file : Bytes} (hsize : file.length < 2 ^ 63)
    (hfit : Fits p file) {n o seq : Nat} (hn : n * 4096 < 2 ^ 63) (h0 : n ≠ 0) (h8 : o % 8 = 0)
    (hno : ∀ z, InLog p file z → z / 2 ^ (64 - p.sequenceNumberBits) = seq → n * 4096 + o ≠ 8 * (z % 2 ^ (64 - p.sequenceNumberBits))) :
    p.candidate file n o (p.offsetToLsn n o seq) = .ok none := by
  obtain ⟨-, -, hs, -⟩ := init_facts hp
  obtain ⟨r, hr⟩ := getPage_total hs file hn
  cases r with
  | none => unfold Parser.candidate; rw [hr]
  | some page => rw [candidate_of hr]; exact candidateOn_none hp hsize hfit hr h0 h8 hno

/-- The next record is found. -/
theorem findNextLsn_of {file0 : Bytes} {p : Parser} (hp : Parser.init file0 = .ok p) (hsize0 : file0.length < 2 ^ 63) {file : Bytes} (hsize : file.length < 2 ^ 63)
    (hfit : Fits p file) {outer x y : Nat}
    (ho : outer / 2 ^ (64 - p.sequenceNumberBits) = x / 2 ^ (64 - p.sequenceNumberBits)) (hn : Next p file x y) :
    p.findNextLsn file outer x = .ok (some y) := by
  obtain ⟨hfs, -, hs, hb1, hb2, h48⟩ := init_facts hp
  obtain ⟨r, hr, hl8, hl8', hly, hyq, n, off, m, o, hoff, hpos, hend, hm, hcase⟩ := hn
  have hrec := (recordOf_iff hp file hsize x r).mpr hr
  obtain ⟨h0, page, hpage, hat⟩ := recordOf_some hrec
  obtain ⟨f1, f2, f3, f4, f5, f6⟩ := recordOf_facts hs hrec
  have hxo := (lsn_position hp x n off hoff).mp hpos
  rw [hxo] at h0 hpage hat f3 f6
  dsimp only at h0 hpage hat f3 f6
  obtain ⟨-, -, -, -, -, -, a7, -⟩ := getPage_some hs hpage
  have hoff8 : off % 8 = 0 := by omega
  have hsq : p.lsnToSeqnum outer = x / 2 ^ (64 - p.sequenceNumberBits) := by
    unfold Parser.lsnToSeqnum; rw [Nat.shiftRight_eq_div_pow]; exact ho
  have hlen : clientDataLength r = dataLengthOf r := rfl
  unfold Parser.findNextLsn
  rw [hxo]
  dsimp only
  rw [if_neg h0, hpage]
  dsimp only
  rw [hat]
  dsimp only
  rw [hlen, if_neg (by omega), hs, hsq]
  have hpd : ∀ q, y / 2 ^ (64 - p.sequenceNumberBits) = q → (m + 1) * 4096 + p.logPageDataOffset = 8 * (y % 2 ^ (64 - p.sequenceNumberBits)) →
      p.candidate file (m + 1) p.logPageDataOffset (p.offsetToLsn (m + 1) p.logPageDataOffset q) = .ok (some y) :=
    fun q hq hh => candidate_hit hp hsize hly (by omega) hh hq
  rcases hend with ⟨rfl, rfl, ho4⟩ | ⟨k, hmk, ho1, ho2, hk, hlong⟩
  · rw [if_pos (by omega)]
    unfold Parser.nextAfterShort
    dsimp only
    rcases hcase with ⟨hc1, hc2⟩ | ⟨hc1, hc2, hc3⟩
    · apply orElse_first
      have := candidate_hit hp hsize hly hc1 hc2 hyq
      rw [candidate_of hpage] at this
      exact this
    · rw [orElse_second (candidateOn_none hp hsize hfit hpage h0 (by omega) hc3), hs, if_neg (by omega)]
      exact hpd _ hyq hc2
  · rw [if_neg (by omega)]
    unfold Parser.nextAfterLong
    dsimp only
    have hq : (dataLengthOf r - (4096 - off - p.recordHeaderLength)) / (4096 - p.logPageDataOffset) = k := by
      rw [show dataLengthOf r - (4096 - off - p.recordHeaderLength) = (o - p.logPageDataOffset) + k * (4096 - p.logPageDataOffset) by omega,
        Nat.add_mul_div_right _ _ (by omega), Nat.div_eq_of_lt (by omega), Nat.zero_add]
    rw [hs, hq]
    have hmm : n + (1 + k) = m := by omega
    have hoo : p.logPageDataOffset + (dataLengthOf r - (4096 - off - p.recordHeaderLength)) - (1 + k - 1) * (4096 - p.logPageDataOffset) = o := by
      rw [show 1 + k - 1 = k by omega]; omega
    rw [hmm, hoo, if_neg (by omega)]
    unfold Parser.nextTwoTries
    rcases hcase with ⟨hc1, hc2⟩ | ⟨hc1, hc2, hc3⟩
    · apply orElse_first
      exact candidate_hit hp hsize hly hc1 hc2 hyq
    · have ho8 : o % 8 = 0 := by
        have : (k * (4096 - p.logPageDataOffset)) % 8 = 0 := by
          rw [Nat.mul_mod, show (4096 - p.logPageDataOffset) % 8 = 0 by omega]; rfl
        omega
      have hm63 : m * 4096 < 2 ^ 63 := by rw [hfs] at hm; exact Nat.lt_of_le_of_lt (Nat.le_trans (Nat.le_add_right _ _) hm) hsize0
      rw [orElse_second (candidate_miss hp hsize hfit hm63 (by omega) ho8 hc3)]
      exact hpd _ hyq hc2

theorem findNextLsn_outer {p : Parser} {file : Bytes} {a b x : Nat}
    (h : p.lsnToSeqnum a = p.lsnToSeqnum b) : p.findNextLsn file a x = p.findNextLsn file b x := by
  unfold Parser.findNextLsn; rw [h]

/-- C34: in a log that is in its first lap (or whose records all have the same sequence number), going
from record to record, however many pages they span, is complete as well. -/
theorem C34_complete_single_lap (file0 : Bytes) (p : Parser) (hp : Parser.init file0 = .ok p) (hsize0 : file0.length < 2 ^ 63) (file : Bytes)
    (hsize : file.length < 2 ^ 63) (hfit : file.length ≤ 8 * 2 ^ (64 - p.sequenceNumberBits)) (seq : Nat)
    (hlap : ∀ x, InLog p file x → x / 2 ^ (64 - p.sequenceNumberBits) = seq)
    (order : List Nat → List Nat) (ho : ∀ l, (order l).Perm l) (fuel : Nat) (config config' : Config) (lsns : List Nat)
    (h : p.collectLsns file order fuel config = some (.ok (config', lsns))) (lsn : Nat)
    (hr : ByUndoNext p file (ByPrevious p file (ByNext p file (Start p file))) lsn) : lsn ∈ lsns := by
  obtain ⟨first, l, hf, he, h1, h2, h3, h4⟩ := collectLsns_ok ho h
  have hfits := fits_of_init hp hfit
  obtain ⟨-, -, s1, s2, s3, new, w1, w2, w3, -, a1, a2, a3, a4, -, a6, -⟩ := extendLsns_ok hfits ho he h1 h2
  have hseq : ∀ x, p.Valid file x → p.lsnToSeqnum x = seq := by
    intro x hx
    unfold Parser.lsnToSeqnum
    rw [Nat.shiftRight_eq_div_pow]
    exact hlap x ((valid_iff hp file hsize x).mp hx)
  have hnext : ∀ x, ByNext p file (Start p file) x → x ∈ s1 := by
    intro x hx
    induction hx with
    | start x hx => exact a1 x (start_mem hp hsize hf h3 h4 hx)
    | step x y _ hxy ih =>
      refine walkAll_closed (f := fun x => p.findNextLsn file x x) ?_ w1 (fun x hx => (ho l).mem_iff.mp hx) x ?_ y (findNextLsn_of hp hsize0 hsize hfits rfl hxy)
      · intro o x hom hxm
        exact findNextLsn_outer (by rw [hseq o (h2 o ((ho l).mem_iff.mp hom)), hseq x (a6 x hxm)])
      · by_cases hm : x ∈ l
        · exact .inl ((ho l).mem_iff.mpr hm)
        · exact .inr ⟨ih, hm⟩
  exact a4 lsn (closed_links hp hsize ho w2 w3 a2 a3 hnext hr)

/-! ### The LSNs of NTFS restart areas -/

theorem mem_foldl_setAdd_of {l s : List Nat} {y : Nat} (h : y ∈ l ∨ y ∈ s) : y ∈ l.foldl setAdd s := (mem_foldl_setAdd l).mpr h

theorem areasLoop_new {p : Parser} {file : Bytes} {fuel : Nat} : ∀ {todo new new' : List Nat} {config config' : Config},
    p.areasLoop file fuel todo config new = some (.ok (config', new')) →
    (∀ y ∈ new, y ∈ new') ∧ ∀ lsn ∈ todo, ∀ d, p.getClientData file fuel lsn = some (.ok d) → d.recordType = 2 → 64 ≤ d.buf.length →
      ∀ y ∈ areaLsns d.buf, y ∈ new'
  | [], new, new', config, config', h => by
    cases h
    exact ⟨fun _ hy => hy, fun lsn hl => by cases hl⟩
  | lsn :: rest, new, new', config, config', h => by
    unfold Parser.areasLoop at h
    split at h
    · cases h
    · cases h
    rename_i d hd
    have skip : (p.areasLoop file fuel rest config new = some (.ok (config', new'))) → ¬ (d.recordType = 2 ∧ 64 ≤ d.buf.length) →
        (∀ y ∈ new, y ∈ new') ∧ ∀ lsn' ∈ lsn :: rest, ∀ d, p.getClientData file fuel lsn' = some (.ok d) → d.recordType = 2 → 64 ≤ d.buf.length →
          ∀ y ∈ areaLsns d.buf, y ∈ new' := by
      intro h hno
      obtain ⟨a1, a2⟩ := areasLoop_new h
      refine ⟨a1, fun x hx d' hd' h1 h2 => ?_⟩
      rcases List.mem_cons.mp hx with rfl | hx
      · rw [hd] at hd'; cases hd'; exact absurd ⟨h1, h2⟩ hno
      · exact a2 x hx d' hd' h1 h2
    split at h
    · rename_i ht
      split at h
      · rename_i area l hdec
        have harea : area = d.buf := by
          unfold ClientData.decoded at hdec
          rw [if_pos ht] at hdec
          obtain ⟨-, hdec⟩ := of_ite_error hdec
          cases hdec; rfl
        obtain ⟨a1, a2⟩ := areasLoop_new h
        refine ⟨fun y hy => a1 y (mem_foldl_setAdd_of (.inr hy)), fun x hx d' hd' h1 h2 y hy => ?_⟩
        rcases List.mem_cons.mp hx with rfl | hx
        · rw [hd] at hd'; cases hd'
          rw [← harea] at hy
          exact a1 y (mem_foldl_setAdd_of (.inl hy))
        · exact a2 x hx d' hd' h1 h2 y hy
      · rename_i hdec
        refine skip h fun hh => ?_
        unfold ClientData.decoded at hdec
        rw [if_pos ht, if_neg (by omega)] at hdec
        cases hdec
      · rename_i e hdec
        split at h
        · refine skip h fun hh => ?_
          unfold ClientData.decoded at hdec
          rw [if_pos ht, if_neg (by omega)] at hdec
          cases hdec
        · cases h
    · rename_i ht
      exact skip h fun hh => ht hh.1

/-- C34: the LSNs recorded in the NTFS restart areas found (the start of the checkpoint and the four
dumps of tables) are in the list, if they are in the log. -/
theorem C34_restart_areas (file0 : Bytes) (p : Parser) (hp : Parser.init file0 = .ok p) (file : Bytes) (hsize : file.length < 2 ^ 63)
    (hfit : file.length ≤ 8 * 2 ^ (64 - p.sequenceNumberBits))
    (order : List Nat → List Nat) (ho : ∀ l, (order l).Perm l) (fuel : Nat) (config config' : Config) (lsns : List Nat)
    (h : p.collectLsns file order fuel config = some (.ok (config', lsns))) (lsn : Nat)
    (hr : ByUndoNext p file (ByPrevious p file (Start p file)) lsn) (d : ClientData)
    (hd : p.getClientData file fuel lsn = some (.ok d)) (htype : d.recordType = 2) (hlen : 64 ≤ d.buf.length)
    (field : Nat) (hfield : field ∈ [8, 16, 24, 32, 40]) (hin : InLog p file (leNat (slice d.buf field (field + 8)))) :
    leNat (slice d.buf field (field + 8)) ∈ lsns := by
  obtain ⟨first, l, hf, he, h1, h2, h3, h4⟩ := collectLsns_ok ho h
  obtain ⟨-, -, s1, s2, s3, new, w1, w2, w3, w4, a1, a2, a3, a4, a5, -⟩ := extendLsns_ok (fits_of_init hp hfit) ho he h1 h2
  have hm := closed_links hp hsize ho w2 w3 a2 a3 (fun x hx => a1 x (start_mem hp hsize hf h3 h4 hx)) hr
  refine a5 _ ((areasLoop_new w4).2 lsn ((ho s3).mem_iff.mpr hm) d hd htype hlen _ ?_) ((valid_iff hp file hsize _).mpr hin)
  unfold areaLsns startOfCheckpointLsn openAttributeTableLsn attributeNamesLsn dirtyPageTableLsn transactionTableLsn u64
  simp only [List.mem_cons, List.not_mem_nil, or_false] at hfield ⊢
  rcases hfield with rfl | rfl | rfl | rfl | rfl
  · exact .inl rfl
  · exact .inr (.inl rfl)
  · exact .inr (.inr (.inl rfl))
  · exact .inr (.inr (.inr (.inl rfl)))
  · exact .inr (.inr (.inr (.inr rfl)))

end Verif.Props
