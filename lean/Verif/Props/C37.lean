/-
Property C37: the data of a log record that is spread over several pages.
-/
import Verif.Proof.LogFileLsns
import Verif.Proof.SampleLog
import Verif.Props.C33
namespace Verif.Props
open Verif.LogFile

/-! ### Pages -/

/-- The number of the page after a page: after the last one, the first one of the circular area. -/
def pageAfter (p : Parser) (n : Nat) : Nat :=
  if (n + 1) * 4096 < p.fileSize then n + 1 else if p.logVersion = (1, 1) then 4 else 34

/-- The data parts of up to `k` pages after the page `n`, up to the first page that is not there. -/
def dataAfter (p : Parser) (file : Bytes) : Nat → Nat → Bytes
  | 0, _ => []
  | k + 1, n =>
    match p.getPage file (pageAfter p n) with
    | .ok (some page) => page.buf.drop p.logPageDataOffset ++ dataAfter p file k (pageAfter p n)
    | _ => []

/-- The versions a parser can have. -/
theorem restartPage_version {raw buf : Bytes} (h : restartPage raw = .ok buf) :
    (majorVersion buf, minorVersion buf) ∈ [(1, 1), (2, 0), (3, 0)] := by
  unfold restartPage at h
  split at h
  · cases h
  · obtain ⟨-, h⟩ := of_ite_error h
    obtain ⟨h1, h⟩ := of_ite_error h
    obtain ⟨-, h⟩ := of_ite_error h
    obtain ⟨-, h⟩ := of_ite_error h
    obtain ⟨-, h⟩ := of_ite_error h
    obtain ⟨-, h⟩ := of_ite_error h
    obtain ⟨-, h⟩ := of_ite_error h
    cases h
    exact Decidable.of_not_not h1

theorem init_version {file : Bytes} {p : Parser} (h : Parser.init file = .ok p) :
    p.logVersion ∈ [(1, 1), (2, 0), (3, 0)] := by
  unfold Parser.init at h
  dsimp only at h
  obtain ⟨-, h⟩ := of_ite_error h
  obtain ⟨-, h⟩ := of_ite_error h
  split at h
  · cases h
  rename_i p1 hp1
  split at h
  · cases h
  rename_i p2 hp2
  split at h
  · cases h
  rename_i size version area hc
  have hver : version ∈ [(1, 1), (2, 0), (3, 0)] := by
    unfold chooseRestart at hc
    split at hc
    · cases hc
    · obtain ⟨r, -, hr⟩ := map_ok hc
      cases hr
      exact restartPage_version (tryRestartPage_some hp2)
    · obtain ⟨r, -, hr⟩ := map_ok hc
      cases hr
      exact restartPage_version (tryRestartPage_some hp1)
    · split at hc
      · cases hc
      · obtain ⟨-, hc⟩ := of_ite_error hc
        obtain ⟨-, hc⟩ := of_ite_error hc
        cases hc
        exact restartPage_version (tryRestartPage_some hp1)
  unfold finishInit at h
  obtain ⟨hl, -, h⟩ := bind_ok h
  obtain ⟨-, h⟩ := of_ite_error h
  obtain ⟨dof, -, h⟩ := bind_ok h
  obtain ⟨bits, -, h⟩ := bind_ok h
  obtain ⟨-, h⟩ := of_ite_error h
  cases h
  exact hver

theorem wrappedPage_eq {file : Bytes} {p : Parser} (h : Parser.init file = .ok p) :
    p.wrappedPage = .ok (if p.logVersion = (1, 1) then 4 else 34) := by
  have hv := init_version h
  unfold Parser.wrappedPage
  rcases List.mem_cons.mp hv with hv | hv
  · rw [hv]; rfl
  rcases List.mem_cons.mp hv with hv | hv
  · rw [hv]; rfl
  rcases List.mem_cons.mp hv with hv | hv
  · rw [hv]; rfl
  · cases hv

/-- Reading a page never fails (below 2^63). -/
theorem getPage_total {p : Parser} (hs : p.logPageSize = 4096) (file : Bytes) {n : Nat} (hn : n * 4096 < 2 ^ 63) :
    ∃ r, p.getPage file n = .ok r := by
  unfold Parser.getPage
  rw [hs, seekRead_ok hn (by omega)]
  dsimp only
  split
  · exact ⟨_, rfl⟩
  · cases hi : LogRecordPage.init (slice file (n * 4096) (n * 4096 + 4096)) n p.logPageDataOffset with
    | ok page => exact ⟨_, rfl⟩
    | error e =>
      dsimp only
      refine ⟨none, ?_⟩
      rw [if_pos]
      unfold LogRecordPage.init at hi
      split at hi
      · rename_i e' he
        cases hi
        have := (C33_rejected_iff _).1.mp ⟨_, he⟩
        rw [this] at he
        cases he
        exact .inl rfl
      · rcases error_of_ite hi with h | ⟨-, hi⟩
        · rw [h]; exact .inl rfl
        · rcases error_of_ite hi with h | ⟨-, hi⟩
          · rw [h]; exact .inr rfl
          · cases hi

theorem pageAfter_lt (p : Parser) (hsize : p.fileSize < 2 ^ 63) (n : Nat) : pageAfter p n * 4096 < 2 ^ 63 := by
  unfold pageAfter
  split
  · omega
  · split <;> omega

/-! ### C37 -/

theorem dataAfter_take (p : Parser) (file : Bytes) (hs : p.logPageSize = 4096) (hd : p.logPageDataOffset < 4096) : ∀ (k j len n : Nat), len ≤ k → len ≤ j →
    (dataAfter p file k n).take len = (dataAfter p file j n).take len
  | k, j, 0, n, _, _ => by rw [List.take_zero, List.take_zero]
  | 0, _, len + 1, _, h, _ => by omega
  | _, 0, len + 1, _, _, h => by omega
  | k + 1, j + 1, len + 1, n, h1, h2 => by
    unfold dataAfter
    split
    · rename_i page hpage
      obtain ⟨-, -, -, -, -, hl, -⟩ := getPage_some hs hpage
      rw [List.take_append, List.take_append]
      congr 1
      refine dataAfter_take p file hs hd _ _ _ _ ?_ ?_ <;> rw [List.length_drop, hl] <;> omega
    · rfl

theorem clientDataLoop_eq {file0 file : Bytes} {p : Parser} (hp : Parser.init file0 = .ok p) (hsize : p.fileSize < 2 ^ 63)
    (hd : p.logPageDataOffset < 4096) : ∀ (left fuel n : Nat) (buf : Bytes), left < fuel →
    p.clientDataLoop file fuel n buf (left : Int) = some (.ok (buf ++ (dataAfter p file left n).take left)) := by
  obtain ⟨-, -, hs, -⟩ := init_facts hp
  intro left
  induction left using Nat.strongRecOn with
  | _ left ih =>
    intro fuel n buf hfuel
    cases fuel with
    | zero => omega
    | succ fuel =>
      unfold Parser.clientDataLoop
      cases left with
      | zero => rw [if_neg (by omega)]; simp [dataAfter]
      | succ k =>
        have hpa : (if (n + 1) * p.logPageSize ≥ p.fileSize then p.wrappedPage else Except.ok (n + 1)) = .ok (pageAfter p n) := by
          rw [hs, wrappedPage_eq hp]
          unfold pageAfter
          by_cases h : (n + 1) * 4096 ≥ p.fileSize
          · rw [if_pos h, if_neg (c := (n + 1) * 4096 < p.fileSize) (by omega)]
          · rw [if_neg h, if_pos (by omega)]
        rw [if_pos (by omega), hpa]
        dsimp only
        obtain ⟨r, hr⟩ := getPage_total hs file (pageAfter_lt p hsize n)
        unfold dataAfter
        rw [hr]
        cases r with
        | none => dsimp only; rw [List.take_nil, List.append_nil]
        | some page =>
          dsimp only
          obtain ⟨-, -, -, -, -, hl, -⟩ := getPage_some hs hr
          have hdl : (page.buf.drop p.logPageDataOffset).length = 4096 - p.logPageDataOffset := by rw [List.length_drop, hl]
          rw [hs]
          by_cases hbig : ((k + 1 : Nat) : Int) ≥ ((4096 : Nat) : Int) - p.logPageDataOffset
          · rw [if_pos hbig, hdl]
            have hc : ((k + 1 : Nat) : Int) - ((4096 - p.logPageDataOffset : Nat) : Int) = ((k + 1 - (4096 - p.logPageDataOffset) : Nat) : Int) := by omega
            rw [hc, ih _ (by omega) fuel _ _ (by omega), List.append_assoc, List.take_append, hdl,
              List.take_of_length_le (l := page.buf.drop p.logPageDataOffset) (by omega)]
            congr 4
            -- a smaller number of pages suffices
            exact dataAfter_take p file hs hd _ _ _ _ (by omega) (by omega)
          · rw [if_neg hbig]
            have hsl : slice page.buf p.logPageDataOffset (p.logPageDataOffset + ((k + 1 : Nat) : Int).toNat) =
                (page.buf.drop p.logPageDataOffset).take (k + 1) := by
              unfold slice; rw [Nat.add_sub_cancel_left]; rfl
            rw [hsl, List.length_take, hdl, Nat.min_eq_left (by omega)]
            have hc : ((k + 1 : Nat) : Int) - ((k + 1 : Nat) : Int) = ((0 : Nat) : Int) := by omega
            rw [hc, ih 0 (by omega) fuel _ _ (by omega), List.take_append, hdl, show k + 1 - (4096 - p.logPageDataOffset) = 0 by omega]
            simp

/-- C37: for every log file and every LSN whose record is in it, reading the data of the record ends
(after at most `2^32 + 1` pages) and gives exactly the declared number of bytes of the following
sequence: what follows the header in the page of the record, then the data parts of the pages after it
(in the circular order), up to the first page that is not there. -/
theorem C37_data (file0 file : Bytes) (p : Parser) (hp : Parser.init file0 = .ok p) (hsize : file0.length < 2 ^ 63)
    (lsn : Nat) (page : LogRecordPage) (hpage : p.getPage file (p.lsnToOffset lsn).1 = .ok (some page))
    (hlow : p.logPageDataOffset ≤ (p.lsnToOffset lsn).2) (hh : p.recordHeaderLength % 8 = 0)
    (hfit : (p.lsnToOffset lsn).2 + p.recordHeaderLength ≤ 4096) (fuel : Nat) (hfuel : 2 ^ 32 < fuel) :
    ∃ d, p.getClientData file fuel lsn = some (.ok d) ∧ d.lsn = lsn ∧
      d.recordType = leNat (slice page.buf ((p.lsnToOffset lsn).2 + 32) ((p.lsnToOffset lsn).2 + 36)) ∧
      d.transactionId = leNat (slice page.buf ((p.lsnToOffset lsn).2 + 36) ((p.lsnToOffset lsn).2 + 40)) ∧
      d.buf = (page.buf.drop ((p.lsnToOffset lsn).2 + p.recordHeaderLength) ++
        dataAfter p file (leNat (slice page.buf ((p.lsnToOffset lsn).2 + 24) ((p.lsnToOffset lsn).2 + 28))) (p.lsnToOffset lsn).1).take
          (leNat (slice page.buf ((p.lsnToOffset lsn).2 + 24) ((p.lsnToOffset lsn).2 + 28))) := by
  obtain ⟨hfs, -, hs, -, -, h48⟩ := init_facts hp
  obtain ⟨-, -, hdo, -, -, hl, -⟩ := getPage_some hs hpage
  have hsl : ∀ i j, slice (page.buf.drop (p.lsnToOffset lsn).2) i j = slice page.buf ((p.lsnToOffset lsn).2 + i) ((p.lsnToOffset lsn).2 + j) := by
    intro i j
    unfold slice
    rw [List.drop_drop, show (p.lsnToOffset lsn).2 + j - ((p.lsnToOffset lsn).2 + i) = j - i by omega]
  have hlen : clientDataLength (page.buf.drop (p.lsnToOffset lsn).2) =
      leNat (slice page.buf ((p.lsnToOffset lsn).2 + 24) ((p.lsnToOffset lsn).2 + 28)) := by
    unfold clientDataLength u32; rw [hsl]
  have htype : recordType (page.buf.drop (p.lsnToOffset lsn).2) =
      leNat (slice page.buf ((p.lsnToOffset lsn).2 + 32) ((p.lsnToOffset lsn).2 + 36)) := by
    unfold recordType u32; rw [hsl]
  have htid : transactionId (page.buf.drop (p.lsnToOffset lsn).2) =
      leNat (slice page.buf ((p.lsnToOffset lsn).2 + 36) ((p.lsnToOffset lsn).2 + 40)) := by
    unfold transactionId u32; rw [hsl]
  have hlt : leNat (slice page.buf ((p.lsnToOffset lsn).2 + 24) ((p.lsnToOffset lsn).2 + 28)) < 2 ^ 32 := by
    rw [← hlen]; exact u32_lt _ _
  unfold Parser.getClientData
  rw [hpage]
  dsimp only
  rw [recordAt_of (by omega) h48 hh (by omega)]
  dsimp only
  rw [hlen, htype, htid, List.drop_drop, hs]
  generalize leNat (slice page.buf ((p.lsnToOffset lsn).2 + 24) ((p.lsnToOffset lsn).2 + 28)) = len at *
  have hfl : (page.buf.drop ((p.lsnToOffset lsn).2 + p.recordHeaderLength)).length = 4096 - ((p.lsnToOffset lsn).2 + p.recordHeaderLength) := by
    rw [List.length_drop, hl]
  by_cases hshort : (len : Int) ≤ ((4096 : Nat) : Int) - (p.lsnToOffset lsn).2 - p.recordHeaderLength
  · rw [if_pos hshort]
    refine ⟨_, rfl, rfl, rfl, rfl, ?_⟩
    dsimp only
    rw [List.take_append, hfl, show len - (4096 - ((p.lsnToOffset lsn).2 + p.recordHeaderLength)) = 0 by omega, List.take_zero, List.append_nil]
    unfold slice
    rw [List.drop_drop, Nat.add_sub_cancel_left]
  · rw [if_neg hshort, hfl]
    have hc : (len : Int) - ((4096 - ((p.lsnToOffset lsn).2 + p.recordHeaderLength) : Nat) : Int) =
        ((len - (4096 - ((p.lsnToOffset lsn).2 + p.recordHeaderLength)) : Nat) : Int) := by omega
    rw [hc, clientDataLoop_eq hp (by omega) (by omega) _ _ _ _ (by omega)]
    refine ⟨_, rfl, rfl, rfl, rfl, ?_⟩
    dsimp only
    rw [List.take_append, hfl, List.take_of_length_le (l := page.buf.drop _) (by omega)]
    congr 1
    exact dataAfter_take p file hs (by omega) _ _ _ _ (by omega) (by omega)

/-- C37: exactly the declared number of bytes is returned when the pages are there. -/
theorem C37_length (file0 file : Bytes) (p : Parser) (hp : Parser.init file0 = .ok p) (hsize : file0.length < 2 ^ 63)
    (lsn : Nat) (page : LogRecordPage) (hpage : p.getPage file (p.lsnToOffset lsn).1 = .ok (some page))
    (hlow : p.logPageDataOffset ≤ (p.lsnToOffset lsn).2) (hh : p.recordHeaderLength % 8 = 0)
    (hfit : (p.lsnToOffset lsn).2 + p.recordHeaderLength ≤ 4096)
    (hpages : ∀ n, ∃ page, p.getPage file (pageAfter p n) = .ok (some page)) (fuel : Nat) (hfuel : 2 ^ 32 < fuel) :
    ∃ d, p.getClientData file fuel lsn = some (.ok d) ∧
      d.buf.length = leNat (slice page.buf ((p.lsnToOffset lsn).2 + 24) ((p.lsnToOffset lsn).2 + 28)) := by
  obtain ⟨d, h1, -, -, -, h2⟩ := C37_data file0 file p hp hsize lsn page hpage hlow hh hfit fuel hfuel
  obtain ⟨-, -, hs, -, -, h48⟩ := init_facts hp
  refine ⟨d, h1, ?_⟩
  have key : ∀ k n, k ≤ (dataAfter p file k n).length := by
    intro k
    induction k with
    | zero => intro n; exact Nat.zero_le _
    | succ k ih =>
      intro n
      unfold dataAfter
      obtain ⟨pg, hpg⟩ := hpages n
      obtain ⟨-, -, -, -, -, hl, -⟩ := getPage_some hs hpg
      rw [hpg]
      dsimp only
      rw [List.length_append, List.length_drop, hl]
      have := ih (pageAfter p n)
      omega
  rw [h2, List.length_take, List.length_append]
  generalize leNat (slice page.buf ((p.lsnToOffset lsn).2 + 24) ((p.lsnToOffset lsn).2 + 28)) = len
  have := key len (p.lsnToOffset lsn).1
  omega

end Verif.Props
