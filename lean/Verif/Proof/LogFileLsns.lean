/-
Lemmas about the collection of LSNs.
-/
import Verif.Model.LogFile.Lsns
import Verif.Proof.LogFile
import Verif.Proof.UpdateSequence
import Verif.Basic.Pigeonhole
namespace Verif.LogFile

/-! ### Pages and records -/

theorem unprotectSectors_length {b d : Bytes} {e : Nat} (h : unprotectSectors b = .ok (d, e)) : d.length = b.length := by
  unfold unprotectSectors at h
  dsimp only at h
  obtain ⟨-, h⟩ := of_ite_error h
  obtain ⟨-, h⟩ := of_ite_error h
  obtain ⟨h1, h⟩ := of_ite_error h
  obtain ⟨-, h⟩ := of_ite_error h
  split at h
  · cases h; rfl
  · split at h
    · cases h
    · cases h
    · rename_i d' hd'
      cases h
      exact (usaLoop_some _ _ _ _ _ (Nat.le_refl 1) _ hd' (by omega)).1

theorem LogRecordPage_init_ok {raw : Bytes} {n d : Nat} {page : LogRecordPage} (h : LogRecordPage.init raw n d = .ok page) :
    unprotectSectors raw = .ok (page.buf, page.endOfUsa) ∧
    slice page.buf 0 4 ∈ ([[0x52, 0x43, 0x52, 0x44], [0x43, 0x48, 0x4B, 0x44], [0x42, 0x41, 0x41, 0x44]] : List Bytes) ∧
    page.dataOffset = d ∧ 8 ≤ d ∧ page.endOfUsa ≤ d ∧ d % 8 = 0 ∧ page.bufProtected = raw ∧ page.pageNumber = n := by
  unfold LogRecordPage.init at h
  split at h
  · cases h
  · rename_i buf e he
    obtain ⟨h1, h⟩ := of_ite_error h
    obtain ⟨h2, h⟩ := of_ite_error h
    cases h
    refine ⟨he, ?_, rfl, ?_, ?_, ?_, rfl, rfl⟩
    · exact Decidable.of_not_not h1
    all_goals first | omega | (dsimp only; omega)

/-- What is known of a page that was found. -/
theorem getPage_some {p : Parser} {file : Bytes} {n : Nat} {page : LogRecordPage} (hs : p.logPageSize = 4096)
    (h : p.getPage file n = .ok (some page)) :
    unprotectSectors (slice file (n * 4096) (n * 4096 + 4096)) = .ok (page.buf, page.endOfUsa) ∧
    slice page.buf 0 4 ∈ ([[0x52, 0x43, 0x52, 0x44], [0x43, 0x48, 0x4B, 0x44], [0x42, 0x41, 0x41, 0x44]] : List Bytes) ∧
    page.dataOffset = p.logPageDataOffset ∧ 8 ≤ p.logPageDataOffset ∧ p.logPageDataOffset % 8 = 0 ∧
    page.buf.length = 4096 ∧ n * 4096 + 4096 ≤ file.length ∧
    page.bufProtected = slice file (n * 4096) (n * 4096 + 4096) ∧ page.endOfUsa ≤ p.logPageDataOffset := by
  unfold Parser.getPage at h
  rw [hs] at h
  split at h
  · cases h
  · rename_i buf hb
    obtain ⟨rfl, -, -⟩ := of_seekRead hb
    split at h
    · cases h
    · rename_i hl
      have hl : (slice file (n * 4096) (n * 4096 + 4096)).length = 4096 := Decidable.of_not_not hl
      split at h
      · rename_i pg hpg
        cases h
        obtain ⟨a1, a2, a3, a4, a5, a6, a7, -⟩ := LogRecordPage_init_ok hpg
        refine ⟨a1, a2, a3, a4, a6, ?_, ?_, a7, a5⟩
        · rw [unprotectSectors_length a1, hl]
        · rw [slice_length] at hl; omega
      · split at h <;> cases h

/-- A page is found exactly when it is in the file and passes the checks of the constructor. -/
theorem getPage_of_init {p : Parser} {file : Bytes} {n : Nat} {page : LogRecordPage} (hs : p.logPageSize = 4096)
    (hn : n * 4096 < 2 ^ 63) (hl : n * 4096 + 4096 ≤ file.length)
    (h : LogRecordPage.init (slice file (n * 4096) (n * 4096 + 4096)) n p.logPageDataOffset = .ok page) :
    p.getPage file n = .ok (some page) := by
  unfold Parser.getPage
  rw [hs, seekRead_ok hn (by omega)]
  dsimp only
  rw [if_neg, h]
  rw [slice_length]; omega

theorem recordAt_ok {page : LogRecordPage} {o len : Nat} {r : Bytes} (h : page.recordAt o len = .ok r) :
    page.dataOffset ≤ o ∧ 48 ≤ len ∧ len % 8 = 0 ∧ len ≤ page.buf.length - o ∧ r = page.buf.drop o := by
  unfold LogRecordPage.recordAt logRecordHeader at h
  obtain ⟨h1, h⟩ := of_ite_error h
  obtain ⟨h2, h⟩ := of_ite_error h
  obtain ⟨h3, h⟩ := of_ite_error h
  obtain ⟨h4, h⟩ := of_ite_error h
  cases h
  rw [List.length_drop] at h4
  exact ⟨by omega, by omega, by omega, by omega, rfl⟩

theorem recordAt_of {page : LogRecordPage} {o len : Nat} (h1 : page.dataOffset ≤ o) (h2 : 48 ≤ len) (h3 : len % 8 = 0)
    (h4 : len ≤ page.buf.length - o) : page.recordAt o len = .ok (page.buf.drop o) := by
  unfold LogRecordPage.recordAt logRecordHeader
  rw [if_neg (by omega), if_neg (by omega), if_neg (by omega), if_neg (by rw [List.length_drop]; omega)]

/-- The record of an LSN carries it. -/
def Parser.Valid (p : Parser) (file : Bytes) (lsn : Nat) : Prop :=
  ∃ r, p.recordOf file lsn = .ok (some r) ∧ thisLsn r = lsn

theorem recordOf_some {p : Parser} {file : Bytes} {lsn : Nat} {r : Bytes} (h : p.recordOf file lsn = .ok (some r)) :
    (p.lsnToOffset lsn).1 ≠ 0 ∧ ∃ page, p.getPage file (p.lsnToOffset lsn).1 = .ok (some page) ∧
      page.recordAt (p.lsnToOffset lsn).2 p.recordHeaderLength = .ok r := by
  unfold Parser.recordOf at h
  split at h
  · cases h
  · rename_i h0
    split at h
    · cases h
    · cases h
    · rename_i page hp
      split at h
      · rename_i r' hr
        cases h
        exact ⟨h0, page, hp, hr⟩
      · split at h <;> cases h

theorem recordOf_of {p : Parser} {file : Bytes} {lsn : Nat} {r : Bytes} {page : LogRecordPage}
    (h0 : (p.lsnToOffset lsn).1 ≠ 0) (h1 : p.getPage file (p.lsnToOffset lsn).1 = .ok (some page))
    (h2 : page.recordAt (p.lsnToOffset lsn).2 p.recordHeaderLength = .ok r) : p.recordOf file lsn = .ok (some r) := by
  unfold Parser.recordOf
  rw [if_neg h0, h1]
  dsimp only
  rw [h2]

theorem valid_lt {p : Parser} {file : Bytes} {lsn : Nat} (h : p.Valid file lsn) : lsn < 2 ^ 64 := by
  obtain ⟨r, -, rfl⟩ := h
  exact u64_lt r 0

/-! ### Candidates -/

theorem candidateOn_some {p : Parser} {page : LogRecordPage} {o lsn y : Nat} (h : p.candidateOn page o lsn = .ok (some y)) :
    y = lsn ∧ ∃ r, page.recordAt o p.recordHeaderLength = .ok r ∧ thisLsn r = lsn := by
  unfold Parser.candidateOn at h
  split at h
  · rename_i r hr
    by_cases ht : thisLsn r = lsn
    · rw [if_pos ht] at h; cases h; exact ⟨rfl, r, hr, ht⟩
    · rw [if_neg ht] at h; cases h
  · split at h <;> cases h

theorem candidateOn_of {p : Parser} {page : LogRecordPage} {o lsn : Nat} {r : Bytes}
    (h : page.recordAt o p.recordHeaderLength = .ok r) (ht : thisLsn r = lsn) : p.candidateOn page o lsn = .ok (some lsn) := by
  unfold Parser.candidateOn
  rw [h]
  dsimp only
  rw [if_pos ht]

theorem candidate_some {p : Parser} {file : Bytes} {n o lsn y : Nat} (h : p.candidate file n o lsn = .ok (some y)) :
    ∃ page, p.getPage file n = .ok (some page) ∧ p.candidateOn page o lsn = .ok (some y) := by
  unfold Parser.candidate at h
  split at h
  · cases h
  · cases h
  · exact ⟨_, by assumption, h⟩

theorem candidate_of {p : Parser} {file : Bytes} {n o lsn : Nat} {page : LogRecordPage} (hp : p.getPage file n = .ok (some page)) :
    p.candidate file n o lsn = p.candidateOn page o lsn := by
  unfold Parser.candidate
  rw [hp]

theorem orElse_some {a b : Except Exc (Option Nat)} {y : Nat} (h : orElse a b = .ok (some y)) :
    a = .ok (some y) ∨ (a = .ok none ∧ b = .ok (some y)) := by
  unfold orElse at h
  split at h
  · exact .inr ⟨rfl, h⟩
  · exact .inl h

/-- The conditions under which positions and LSNs correspond. -/
structure Fits (p : Parser) (file : Bytes) : Prop where
  size : p.logPageSize = 4096
  low : 3 ≤ p.sequenceNumberBits
  high : p.sequenceNumberBits < 64
  fits : file.length ≤ 8 * 2 ^ (64 - p.sequenceNumberBits)

theorem lsnToOffset_offsetToLsn {p : Parser} {file : Bytes} (hf : Fits p file) {n o seq : Nat} (ho : o < 4096)
    (h8 : o % 8 = 0) (hn : n * 4096 + 4096 ≤ file.length) : p.lsnToOffset (p.offsetToLsn n o seq) = (n, o) := by
  have := hf.fits
  have hpos : n * 4096 + o < 8 * 2 ^ (64 - p.sequenceNumberBits) := by omega
  have hq : (n * 4096 + o) / 8 < 2 ^ (64 - p.sequenceNumberBits) := by omega
  rw [lsnToOffset_eq p hf.low hf.high, offsetToLsn_eq p _ _ _ (by rw [hf.size]; exact hpos), hf.size]
  rw [Nat.mul_comm seq, Nat.mul_add_mod, Nat.mod_eq_of_lt hq,
      show 8 * ((n * 4096 + o) / 8) = n * 4096 + o by omega]
  congr 1 <;> omega

/-- A candidate that is confirmed is a valid LSN. -/
theorem candidate_valid {p : Parser} {file : Bytes} (hf : Fits p file) {n o seq y : Nat} {page : LogRecordPage}
    (hp : p.getPage file n = .ok (some page)) (h0 : n ≠ 0) (h8 : o % 8 = 0)
    (h : p.candidateOn page o (p.offsetToLsn n o seq) = .ok (some y)) : p.Valid file y := by
  obtain ⟨rfl, r, hr, ht⟩ := candidateOn_some h
  obtain ⟨-, -, -, -, -, hl, hn, -, -⟩ := getPage_some hf.size hp
  obtain ⟨-, h48, -, hlen, -⟩ := recordAt_ok hr
  have ho : o < 4096 := by omega
  have hoff := lsnToOffset_offsetToLsn hf (seq := seq) ho h8 hn
  refine ⟨r, recordOf_of (page := page) ?_ ?_ ?_, ht⟩
  · rw [hoff]; exact h0
  · rw [hoff]; exact hp
  · rw [hoff]; exact hr

theorem lsnToOffset_aligned {p : Parser} {file : Bytes} (hf : Fits p file) (lsn : Nat) : (p.lsnToOffset lsn).2 % 8 = 0 ∧
    (p.lsnToOffset lsn).2 < 4096 := by
  rw [lsnToOffset_eq p hf.low hf.high, hf.size]
  dsimp only
  omega

theorem wrappedPage_pos {p : Parser} {w : Nat} (h : p.wrappedPage = .ok w) : 4 ≤ w := by
  unfold Parser.wrappedPage at h
  split at h
  · cases h; omega
  · split at h <;> cases h; omega

/-- Where the record of an LSN is found, with all that is known. -/
theorem recordOf_facts {p : Parser} {file : Bytes} (hs : p.logPageSize = 4096) {lsn : Nat} {r : Bytes}
    (h : p.recordOf file lsn = .ok (some r)) :
    p.logPageDataOffset % 8 = 0 ∧ 8 ≤ p.logPageDataOffset ∧ p.logPageDataOffset ≤ (p.lsnToOffset lsn).2 ∧
    48 ≤ p.recordHeaderLength ∧ p.recordHeaderLength % 8 = 0 ∧ (p.lsnToOffset lsn).2 + p.recordHeaderLength ≤ 4096 := by
  obtain ⟨-, page, h1, h2⟩ := recordOf_some h
  obtain ⟨-, -, hd, h8, hd8, hl, -⟩ := getPage_some hs h1
  obtain ⟨a1, a2, a3, a4, -⟩ := recordAt_ok h2
  exact ⟨hd8, h8, by omega, a2, a3, by omega⟩

theorem nextTwoTries_valid {p : Parser} {file : Bytes} (hf : Fits p file) {seq m o y : Nat} (hm : m ≠ 0) (h8 : o % 8 = 0)
    (hd : p.logPageDataOffset % 8 = 0) (h : p.nextTwoTries file seq m o = .ok (some y)) : p.Valid file y := by
  unfold Parser.nextTwoTries at h
  rcases orElse_some h with h | ⟨-, h⟩
  · obtain ⟨page, hp, h⟩ := candidate_some h
    exact candidate_valid hf hp hm h8 h
  · obtain ⟨page, hp, h⟩ := candidate_some h
    exact candidate_valid hf hp (by omega) hd h

theorem findNextLsn_valid {p : Parser} {file : Bytes} (hf : Fits p file) {outer cur y : Nat}
    (h : p.findNextLsn file outer cur = .ok (some y)) : p.Valid file y := by
  unfold Parser.findNextLsn at h
  split at h
  · cases h
  rename_i h0
  split at h
  · cases h
  · cases h
  rename_i page hp
  split at h
  · split at h <;> cases h
  rename_i r hr
  obtain ⟨-, -, hdo, h8, hd8, hl, hn, -⟩ := getPage_some hf.size hp
  obtain ⟨hlow, h48, hh8, hfit, -⟩ := recordAt_ok hr
  obtain ⟨ha, hb⟩ := lsnToOffset_aligned hf cur
  split at h
  · cases h
  rename_i hlen
  split at h
  · unfold Parser.nextAfterShort at h
    dsimp only at h
    rcases orElse_some h with h | ⟨-, h⟩
    · exact candidate_valid hf hp h0 (by omega) h
    · split at h
      · split at h
        · cases h
        · rename_i w hw
          have := wrappedPage_pos hw
          obtain ⟨page', hp', h⟩ := candidate_some h
          exact candidate_valid hf hp' (by omega) hd8 h
      · obtain ⟨page', hp', h⟩ := candidate_some h
        exact candidate_valid hf hp' (by omega) hd8 h
  · unfold Parser.nextAfterLong at h
    dsimp only at h
    have ho8 : ∀ k, (p.logPageDataOffset + (clientDataLength r - (p.logPageSize - (p.lsnToOffset cur).2 - p.recordHeaderLength)) -
        k * (p.logPageSize - p.logPageDataOffset)) % 8 = 0 := by
      intro k
      rw [hf.size]
      have : (k * (4096 - p.logPageDataOffset)) % 8 = 0 := by
        rw [Nat.mul_mod, show (4096 - p.logPageDataOffset) % 8 = 0 by omega]; rfl
      omega
    split at h
    · rename_i hwrap
      split at h
      · cases h
      · rename_i w hw
        have hw := wrappedPage_pos hw
        refine nextTwoTries_valid hf ?_ (ho8 _) hd8 h
        rw [hf.size] at hwrap ⊢
        generalize (p.lsnToOffset cur).1 + (1 + (clientDataLength r - (4096 - (p.lsnToOffset cur).2 - p.recordHeaderLength)) / (4096 - p.logPageDataOffset)) = x at hwrap ⊢
        omega
    · exact nextTwoTries_valid hf (fun hc => h0 (Nat.add_eq_zero_iff.mp hc).1) (ho8 _) hd8 h

theorem linked_some {p : Parser} {file : Bytes} {lsn y : Nat} (h : p.linked file lsn = .ok (some y)) :
    y = lsn ∧ p.Valid file lsn := by
  unfold Parser.linked at h
  split at h
  · cases h
  · rename_i h0
    obtain ⟨page, hp, h⟩ := candidate_some h
    obtain ⟨rfl, r, hr, ht⟩ := candidateOn_some h
    exact ⟨rfl, r, recordOf_of h0 hp hr, ht⟩

theorem linked_of {p : Parser} {file : Bytes} {lsn : Nat} (h : p.Valid file lsn) : p.linked file lsn = .ok (some lsn) := by
  obtain ⟨r, hr, ht⟩ := h
  obtain ⟨h0, page, h1, h2⟩ := recordOf_some hr
  unfold Parser.linked
  rw [if_neg h0, candidate_of h1]
  exact candidateOn_of h2 ht

theorem findPreviousLsn_some {p : Parser} {file : Bytes} {cur y : Nat} (h : p.findPreviousLsn file cur = .ok (some y)) :
    p.Valid file y ∧ ∃ r, p.recordOf file cur = .ok (some r) ∧ clientPreviousLsn r = y := by
  unfold Parser.findPreviousLsn at h
  split at h
  · cases h
  · cases h
  · rename_i r hr
    obtain ⟨rfl, hv⟩ := linked_some h
    exact ⟨hv, r, hr, rfl⟩

theorem findUndoNextLsn_some {p : Parser} {file : Bytes} {cur y : Nat} (h : p.findUndoNextLsn file cur = .ok (some y)) :
    p.Valid file y ∧ ∃ r, p.recordOf file cur = .ok (some r) ∧ clientUndoNextLsn r = y := by
  unfold Parser.findUndoNextLsn at h
  split at h
  · cases h
  · cases h
  · rename_i r hr
    obtain ⟨rfl, hv⟩ := linked_some h
    exact ⟨hv, r, hr, rfl⟩

/-! ### Sets -/

theorem setAdd_nodup {s : List Nat} {x : Nat} (h : s.Nodup) : (setAdd s x).Nodup := by
  unfold setAdd
  split
  · exact h
  · exact List.nodup_cons.mpr ⟨by assumption, h⟩

theorem mem_setAdd {s : List Nat} {x y : Nat} : y ∈ setAdd s x ↔ y = x ∨ y ∈ s := by
  unfold setAdd
  split
  · constructor
    · exact .inr
    · rintro (rfl | h) <;> assumption
  · exact List.mem_cons

theorem foldl_setAdd_nodup : ∀ (l : List Nat) {s : List Nat}, s.Nodup → (l.foldl setAdd s).Nodup
  | [], _, h => h
  | _ :: l, _, h => foldl_setAdd_nodup l (setAdd_nodup h)

theorem mem_foldl_setAdd : ∀ (l : List Nat) {s : List Nat} {y : Nat}, y ∈ l.foldl setAdd s ↔ y ∈ l ∨ y ∈ s
  | [], s, y => by simp
  | x :: l, s, y => by
    rw [List.foldl_cons, mem_foldl_setAdd l, mem_setAdd, List.mem_cons]
    constructor
    · rintro (h | rfl | h)
      · exact .inl (.inr h)
      · exact .inl (.inl rfl)
      · exact .inr h
    · rintro ((rfl | h) | h)
      · exact .inr (.inl rfl)
      · exact .inl h
      · exact .inr (.inr h)

/-! ### Validation -/

theorem validateLoop_ok {p : Parser} {file : Bytes} : ∀ {todo lsns new lsns' new' : List Nat},
    p.validateLoop file todo lsns new = .ok (lsns', new') → lsns.Nodup → new.Nodup →
    lsns'.Nodup ∧ new'.Nodup ∧ (∀ x, x ∈ lsns' ↔ x ∈ lsns ∧ (x ∈ todo → p.Valid file x)) ∧
    (∀ y, y ∈ new' ↔ y ∈ new ∨ ∃ x ∈ todo, ∃ r, p.recordOf file x = .ok (some r) ∧ (clientPreviousLsn r = y ∨ clientUndoNextLsn r = y))
  | [], lsns, new, lsns', new', h, h1, h2 => by
    cases h
    exact ⟨h1, h2, fun x => by simp, fun y => by simp⟩
  | lsn :: rest, lsns, new, lsns', new', h, h1, h2 => by
    unfold Parser.validateLoop at h
    split at h
    · cases h
    · rename_i hr
      obtain ⟨a1, a2, a3, a4⟩ := validateLoop_ok h (h1.erase _) h2
      refine ⟨a1, a2, fun x => ?_, fun y => ?_⟩
      · rw [a3, h1.mem_erase_iff]
        constructor
        · rintro ⟨⟨b1, b2⟩, b3⟩
          exact ⟨b2, fun hm => by
            rcases List.mem_cons.mp hm with rfl | hm
            · exact absurd rfl b1
            · exact b3 hm⟩
        · rintro ⟨b1, b2⟩
          refine ⟨⟨?_, b1⟩, fun hm => b2 (List.mem_cons_of_mem _ hm)⟩
          rintro rfl
          obtain ⟨r, hr', -⟩ := b2 (List.mem_cons_self ..)
          rw [hr] at hr'
          cases hr'
      · rw [a4]
        constructor
        · rintro (b | ⟨x, b1, b2⟩)
          · exact .inl b
          · exact .inr ⟨x, List.mem_cons_of_mem _ b1, b2⟩
        · rintro (b | ⟨x, b1, b2⟩)
          · exact .inl b
          · rcases List.mem_cons.mp b1 with rfl | b1
            · obtain ⟨r, hr', -⟩ := b2
              rw [hr] at hr'
              cases hr'
            · exact .inr ⟨x, b1, b2⟩
    · rename_i r hr
      have hnd : (if lsn ≠ thisLsn r then lsns.erase lsn else lsns).Nodup := by
        split
        · exact h1.erase _
        · exact h1
      obtain ⟨a1, a2, a3, a4⟩ := validateLoop_ok h hnd (setAdd_nodup (setAdd_nodup h2))
      refine ⟨a1, a2, fun x => ?_, fun y => ?_⟩
      · rw [a3]
        by_cases ht : lsn = thisLsn r
        · rw [if_neg (by simpa using ht)]
          have hv : p.Valid file lsn := ⟨r, hr, ht.symm⟩
          constructor
          · rintro ⟨b1, b2⟩
            exact ⟨b1, fun hm => by
              rcases List.mem_cons.mp hm with rfl | hm
              · exact hv
              · exact b2 hm⟩
          · rintro ⟨b1, b2⟩
            exact ⟨b1, fun hm => b2 (List.mem_cons_of_mem _ hm)⟩
        · rw [if_pos ht, h1.mem_erase_iff]
          constructor
          · rintro ⟨⟨b1, b2⟩, b3⟩
            exact ⟨b2, fun hm => by
              rcases List.mem_cons.mp hm with rfl | hm
              · exact absurd rfl b1
              · exact b3 hm⟩
          · rintro ⟨b1, b2⟩
            refine ⟨⟨?_, b1⟩, fun hm => b2 (List.mem_cons_of_mem _ hm)⟩
            rintro rfl
            obtain ⟨r', hr', ht'⟩ := b2 (List.mem_cons_self ..)
            rw [hr] at hr'
            cases hr'
            exact ht ht'.symm
      · rw [a4, mem_setAdd, mem_setAdd]
        constructor
        · rintro ((b | b | b) | ⟨x, b1, b2⟩)
          · exact .inr ⟨lsn, List.mem_cons_self .., r, hr, .inr b.symm⟩
          · exact .inr ⟨lsn, List.mem_cons_self .., r, hr, .inl b.symm⟩
          · exact .inl b
          · exact .inr ⟨x, List.mem_cons_of_mem _ b1, b2⟩
        · rintro (b | ⟨x, b1, b2⟩)
          · exact .inl (.inr (.inr b))
          · rcases List.mem_cons.mp b1 with rfl | b1
            · obtain ⟨r', hr', b2⟩ := b2
              rw [hr] at hr'
              cases hr'
              rcases b2 with b2 | b2
              · exact .inl (.inr (.inl b2.symm))
              · exact .inl (.inl b2.symm)
            · exact .inr ⟨x, b1, b2⟩

theorem validateNew_ok {p : Parser} {file : Bytes} : ∀ {todo new new' : List Nat},
    p.validateNew file todo new = .ok new' → new.Nodup →
    new'.Nodup ∧ ∀ x, x ∈ new' ↔ x ∈ new ∧ (x ∈ todo → p.Valid file x)
  | [], new, new', h, h1 => by
    cases h
    exact ⟨h1, fun x => by simp⟩
  | lsn :: rest, new, new', h, h1 => by
    unfold Parser.validateNew at h
    split at h
    · cases h
    · rename_i hr
      obtain ⟨a1, a3⟩ := validateNew_ok h (h1.erase _)
      refine ⟨a1, fun x => ?_⟩
      rw [a3, h1.mem_erase_iff]
      constructor
      · rintro ⟨⟨b1, b2⟩, b3⟩
        exact ⟨b2, fun hm => by
          rcases List.mem_cons.mp hm with rfl | hm
          · exact absurd rfl b1
          · exact b3 hm⟩
      · rintro ⟨b1, b2⟩
        refine ⟨⟨?_, b1⟩, fun hm => b2 (List.mem_cons_of_mem _ hm)⟩
        rintro rfl
        obtain ⟨r, hr', -⟩ := b2 (List.mem_cons_self ..)
        rw [hr] at hr'
        cases hr'
    · rename_i r hr
      have hnd : (if lsn ≠ thisLsn r then new.erase lsn else new).Nodup := by
        split
        · exact h1.erase _
        · exact h1
      obtain ⟨a1, a3⟩ := validateNew_ok h hnd
      refine ⟨a1, fun x => ?_⟩
      rw [a3]
      by_cases ht : lsn = thisLsn r
      · rw [if_neg (by simpa using ht)]
        have hv : p.Valid file lsn := ⟨r, hr, ht.symm⟩
        constructor
        · rintro ⟨b1, b2⟩
          exact ⟨b1, fun hm => by
            rcases List.mem_cons.mp hm with rfl | hm
            · exact hv
            · exact b2 hm⟩
        · rintro ⟨b1, b2⟩
          exact ⟨b1, fun hm => b2 (List.mem_cons_of_mem _ hm)⟩
      · rw [if_pos ht, h1.mem_erase_iff]
        constructor
        · rintro ⟨⟨b1, b2⟩, b3⟩
          exact ⟨b2, fun hm => by
            rcases List.mem_cons.mp hm with rfl | hm
            · exact absurd rfl b1
            · exact b3 hm⟩
        · rintro ⟨b1, b2⟩
          refine ⟨⟨?_, b1⟩, fun hm => b2 (List.mem_cons_of_mem _ hm)⟩
          rintro rfl
          obtain ⟨r', hr', ht'⟩ := b2 (List.mem_cons_self ..)
          rw [hr] at hr'
          cases hr'
          exact ht ht'.symm

/-! ### Walks -/

/-- A walk keeps a property of LSNs that its steps establish. -/
theorem walk_keeps {P : Nat → Prop} {step : Nat → Except Exc (Option Nat)} (hstep : ∀ x y, step x = .ok (some y) → P y) :
    ∀ {fuel cur : Nat} {lsns lsns' : List Nat}, walk step fuel cur lsns = some (.ok lsns') → lsns.Nodup → (∀ x ∈ lsns, P x) →
    lsns'.Nodup ∧ (∀ x ∈ lsns', P x) ∧ ∀ x ∈ lsns, x ∈ lsns'
  | 0, _, _, _, h, _, _ => by cases h
  | fuel + 1, cur, lsns, lsns', h, h1, h2 => by
    unfold walk at h
    split at h
    · cases h
    · cases h; exact ⟨h1, h2, fun _ hx => hx⟩
    · rename_i next hn
      split at h
      · cases h; exact ⟨h1, h2, fun _ hx => hx⟩
      · rename_i hnm
        obtain ⟨a1, a2, a3⟩ := walk_keeps hstep h (List.nodup_cons.mpr ⟨hnm, h1⟩) (by
          intro x hx
          rcases List.mem_cons.mp hx with rfl | hx
          · exact hstep _ _ hn
          · exact h2 x hx)
        exact ⟨a1, a2, fun x hx => a3 x (List.mem_cons_of_mem _ hx)⟩

/-- A walk ends when there are enough steps for all LSNs below a bound. -/
theorem walk_ends {step : Nat → Except Exc (Option Nat)} {bound : Nat} (hstep : ∀ x y, step x = .ok (some y) → y < bound) :
    ∀ {fuel cur : Nat} {lsns : List Nat}, lsns.Nodup → (∀ x ∈ lsns, x < bound) → bound < fuel + lsns.length →
    ∃ r, walk step fuel cur lsns = some r
  | 0, _, lsns, h1, h2, h3 => by
    have := nodup_bounded_length bound lsns h1 h2
    omega
  | fuel + 1, cur, lsns, h1, h2, h3 => by
    unfold walk
    split
    · exact ⟨_, rfl⟩
    · exact ⟨_, rfl⟩
    · rename_i next hn
      split
      · exact ⟨_, rfl⟩
      · rename_i hnm
        apply walk_ends hstep (List.nodup_cons.mpr ⟨hnm, h1⟩)
        · intro x hx
          rcases List.mem_cons.mp hx with rfl | hx
          · exact hstep _ _ hn
          · exact h2 x hx
        · rw [List.length_cons]; omega

/-- What a walk adds is closed under the steps, and so is its start. -/
theorem walk_closed {step : Nat → Except Exc (Option Nat)} :
    ∀ {fuel cur : Nat} {lsns lsns' : List Nat}, walk step fuel cur lsns = some (.ok lsns') →
    ∀ x, (x = cur ∨ (x ∈ lsns' ∧ x ∉ lsns)) → ∀ y, step x = .ok (some y) → y ∈ lsns'
  | 0, _, _, _, h => by cases h
  | fuel + 1, cur, lsns, lsns', h => by
    intro x hx y hy
    have h' := h
    unfold walk at h
    split at h
    · cases h
    · rename_i hn
      cases h
      rcases hx with rfl | ⟨hx, hx'⟩
      · rw [hn] at hy; cases hy
      · exact absurd hx hx'
    · rename_i next hn
      split at h
      · rename_i hm
        cases h
        rcases hx with rfl | ⟨hx, hx'⟩
        · rw [hn] at hy; cases hy; exact hm
        · exact absurd hx hx'
      · rename_i hnm
        have hsub := (walk_subset h)
        rcases hx with rfl | ⟨hx, hx'⟩
        · rw [hn] at hy; cases hy; exact hsub _ (List.mem_cons_self ..)
        · by_cases hxn : x = next
          · exact walk_closed h x (.inl hxn) y hy
          · refine walk_closed h x (.inr ⟨hx, ?_⟩) y hy
            intro hm
            rcases List.mem_cons.mp hm with hm | hm
            · exact hxn hm
            · exact hx' hm
where
  walk_subset {step : Nat → Except Exc (Option Nat)} : ∀ {fuel cur : Nat} {lsns lsns' : List Nat},
      walk step fuel cur lsns = some (.ok lsns') → ∀ x ∈ lsns, x ∈ lsns'
    | 0, _, _, _, h => by cases h
    | fuel + 1, cur, lsns, lsns', h => by
      unfold walk at h
      split at h
      · cases h
      · cases h; exact fun _ hx => hx
      · split at h
        · cases h; exact fun _ hx => hx
        · intro x hx
          exact walk_subset h x (List.mem_cons_of_mem _ hx)

theorem walk_subset {step : Nat → Except Exc (Option Nat)} {fuel cur : Nat} {lsns lsns' : List Nat}
    (h : walk step fuel cur lsns = some (.ok lsns')) : ∀ x ∈ lsns, x ∈ lsns' := walk_closed.walk_subset h

theorem walkAll_keeps {P : Nat → Prop} {step : Nat → Nat → Except Exc (Option Nat)} {fuel : Nat}
    (hstep : ∀ o x y, step o x = .ok (some y) → P y) : ∀ {todo lsns lsns' : List Nat},
    walkAll step fuel todo lsns = some (.ok lsns') → lsns.Nodup → (∀ x ∈ lsns, P x) →
    lsns'.Nodup ∧ (∀ x ∈ lsns', P x) ∧ ∀ x ∈ lsns, x ∈ lsns'
  | [], _, _, h, h1, h2 => by cases h; exact ⟨h1, h2, fun _ hx => hx⟩
  | lsn :: rest, lsns, lsns', h, h1, h2 => by
    unfold walkAll at h
    split at h
    · cases h
    · cases h
    · rename_i l hl
      obtain ⟨a1, a2, a3⟩ := walk_keeps (hstep lsn) hl h1 h2
      obtain ⟨b1, b2, b3⟩ := walkAll_keeps hstep h a1 a2
      exact ⟨b1, b2, fun x hx => b3 x (a3 x hx)⟩

theorem walkAll_ends {step : Nat → Nat → Except Exc (Option Nat)} {bound fuel : Nat} (hfuel : bound < fuel)
    (hstep : ∀ o x y, step o x = .ok (some y) → y < bound) : ∀ {todo lsns : List Nat}, lsns.Nodup → (∀ x ∈ lsns, x < bound) →
    ∃ r, walkAll step fuel todo lsns = some r
  | [], _, _, _ => ⟨_, rfl⟩
  | lsn :: rest, lsns, h1, h2 => by
    unfold walkAll
    obtain ⟨r, hr⟩ := walk_ends (hstep lsn) (cur := lsn) h1 h2 (by omega : bound < fuel + lsns.length)
    rw [hr]
    cases r with
    | error e => exact ⟨_, rfl⟩
    | ok l =>
      obtain ⟨a1, a2, -⟩ := walk_keeps (P := (· < bound)) (hstep lsn) hr h1 h2
      exact walkAll_ends hfuel hstep a1 a2

/-- After a walk from every LSN the set is closed under the steps (when they do not depend on the LSN
the walk began with). -/
theorem walkAll_closed {step : Nat → Nat → Except Exc (Option Nat)} {f : Nat → Except Exc (Option Nat)} {fuel : Nat} :
    ∀ {todo lsns lsns' : List Nat}, (∀ o x, o ∈ todo → x ∈ lsns' → step o x = f x) →
    walkAll step fuel todo lsns = some (.ok lsns') → (∀ x ∈ todo, x ∈ lsns) →
    ∀ x, (x ∈ todo ∨ (x ∈ lsns' ∧ x ∉ lsns)) → ∀ y, f x = .ok (some y) → y ∈ lsns'
  | [], _, _, _, h, _ => by
    cases h
    rintro x (hx | ⟨hx, hx'⟩)
    · cases hx
    · exact absurd hx hx'
  | lsn :: rest, lsns, lsns', hsf, h, hsub => by
    intro x hx y hy
    unfold walkAll at h
    split at h
    · cases h
    · cases h
    · rename_i l hl
      have hs1 := walk_subset hl
      have hs2 : ∀ x ∈ l, x ∈ lsns' := walkAll_subset h
      by_cases hxl : x ∈ l
      · by_cases hxr : x ∈ rest
        · exact walkAll_closed (fun o x ho => hsf o x (List.mem_cons_of_mem _ ho)) h
            (fun z hz => hs1 z (hsub z (List.mem_cons_of_mem _ hz))) x (.inl hxr) y hy
        · have hy' : step lsn x = .ok (some y) := by rw [hsf lsn x (List.mem_cons_self ..) (hs2 x hxl)]; exact hy
          apply hs2
          rcases hx with hx | ⟨hx, hx'⟩
          · rcases List.mem_cons.mp hx with rfl | hx
            · exact walk_closed hl x (.inl rfl) y hy'
            · exact absurd hx hxr
          · exact walk_closed hl x (.inr ⟨hxl, hx'⟩) y hy'
      · have hxm : x ∈ lsns' := by
          rcases hx with hx | ⟨hx, -⟩
          · exact absurd (hs1 x (hsub x hx)) hxl
          · exact hx
        exact walkAll_closed (fun o x ho => hsf o x (List.mem_cons_of_mem _ ho)) h
          (fun z hz => hs1 z (hsub z (List.mem_cons_of_mem _ hz))) x (.inr ⟨hxm, hxl⟩) y hy
where
  walkAll_subset {step : Nat → Nat → Except Exc (Option Nat)} {fuel : Nat} : ∀ {todo lsns lsns' : List Nat},
      walkAll step fuel todo lsns = some (.ok lsns') → ∀ x ∈ lsns, x ∈ lsns'
    | [], _, _, h => by cases h; exact fun _ hx => hx
    | lsn :: rest, lsns, lsns', h => by
      unfold walkAll at h
      split at h
      · cases h
      · cases h
      · rename_i l hl
        exact fun x hx => walkAll_subset h x (walk_subset hl x hx)

end Verif.LogFile
