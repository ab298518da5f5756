/-
Property C122: the exceptions of opening a log file.
-/
import Verif.Props.C38
namespace Verif.Props
open Verif.LogFile

/-- The restart page that is used for a log file: the first page of the file when it is a valid one, otherwise the second one. -/
def UsedRestart (file page : Bytes) : Prop :=
  ValidRestart (slice file 0 4096) page ∨
  ((∀ other, ¬ ValidRestart (slice file 0 4096) other) ∧ ValidRestart (slice file 4096 8192) page)

/-- A page with intact sectors whose version is not known, or which gives a page size other than 4096. -/
def UnsupportedRestart (raw : Bytes) : Prop :=
  ∃ page e, unprotectSectors raw = .ok (page, e) ∧
    ((leNat (slice page 28 30), leNat (slice page 26 28)) ∉ [(1, 1), (2, 0), (3, 0)] ∨
      leNat (slice page 16 20) ≠ 4096 ∨ leNat (slice page 20 24) ≠ 4096)

theorem restartPage_error {raw : Bytes} {e : Exc} (h : restartPage raw = .error e) :
    isLogFileException e = true ∨ (e = .NotImplementedError ∧ UnsupportedRestart raw) := by
  unfold restartPage at h
  split at h
  · rename_i e' he
    cases h
    have := (C33_rejected_iff raw).1.mp ⟨_, he⟩
    rw [he] at this
    cases this
    exact .inl rfl
  · rename_i buf n he
    split at h
    · cases h; exact .inl rfl
    split at h
    · rename_i hv; cases h; exact .inr ⟨rfl, buf, n, he, .inl hv⟩
    split at h
    · cases h; exact .inl rfl
    split at h
    · rename_i hv; cases h; exact .inr ⟨rfl, buf, n, he, .inr (.inl hv)⟩
    split at h
    · cases h; exact .inl rfl
    split at h
    · rename_i hv; cases h; exact .inr ⟨rfl, buf, n, he, .inr (.inr hv)⟩
    split at h
    · cases h; exact .inl rfl
    · cases h

theorem tryRestartPage_error {raw : Bytes} {e : Exc} (h : tryRestartPage raw = .error e) :
    e = .NotImplementedError ∧ UnsupportedRestart raw := by
  unfold tryRestartPage at h
  split at h
  · cases h
  · rename_i e' he
    split at h
    · cases h
    · rename_i hn
      cases h
      rcases restartPage_error he with h | h
      · exact absurd h hn
      · exact h

theorem tryRestartPage_page {raw page : Bytes} (h : tryRestartPage raw = .ok (some page)) : ValidRestart raw page := by
  unfold tryRestartPage at h
  split at h
  · rename_i buf hb
    cases h
    exact (restartPage_iff raw page).mp hb
  · split at h <;> cases h

theorem unpackLE_error122 {n : Nat} {b : Bytes} {e : Exc} (h : unpackLE n b = .error e) : e = .StructError ∧ b.length ≠ n := by
  unfold unpackLE at h
  split at h
  · cases h
  · cases h; exact ⟨rfl, by assumption⟩

theorem unpackLE_of_length {n : Nat} {b : Bytes} (h : b.length = n) : unpackLE n b = .ok (leNat b) := by
  unfold unpackLE
  rw [if_pos h]

theorem exc_bind_error {α β : Type} {x : Except Exc α} {f : α → Except Exc β} {e : Exc} (h : (x >>= f) = .error e) :
    x = .error e ∨ ∃ a, x = .ok a ∧ f a = .error e := by
  cases x with
  | error e' => cases h; exact .inl rfl
  | ok a => exact .inr ⟨a, rfl, h⟩

theorem getRestartArea_error {raw page : Bytes} (hv : ValidRestart raw page) {e : Exc} (h : getRestartArea page = .error e) :
    (e = .RestartAreaException ∧ 24 ≤ (areaOf page).length ∧ ¬ ValidArea page) ∨ (e = .StructError ∧ (areaOf page).length < 24) := by
  have hsz : systemPageSize page = 4096 := hv.2.2.2.1
  by_cases hl : (areaOf page).length < 24
  · refine .inr ⟨?_, hl⟩
    unfold getRestartArea restartArea at h
    rcases exc_bind_error h with h | ⟨o, h1, -⟩
    · exact (unpackLE_error122 h).1
    · have := (unpackLE_ok_eq h1).2
      change (slice (areaOf page) 22 24).length = 2 at this
      rw [slice_length] at this
      omega
  · refine .inl ?_
    have e1 : clientArrayOffset (areaOf page) = .ok _ := unpackLE_of_length (by rw [slice_length]; omega)
    have e2 : logClients (areaOf page) = .ok _ := unpackLE_of_length (by rw [slice_length]; omega)
    have e3 : clientFreeList (areaOf page) = .ok _ := unpackLE_of_length (by rw [slice_length]; omega)
    have e4 : clientInUseList (areaOf page) = .ok _ := unpackLE_of_length (by rw [slice_length]; omega)
    have he : e = .RestartAreaException := by
      change restartArea (areaOf page) (systemPageSize page) = _ at h
      unfold restartArea at h
      rw [e1, e2, e3, e4] at h
      simp only [bind, Except.bind] at h
      split at h
      · cases h; rfl
      split at h
      · cases h; rfl
      split at h
      · cases h; rfl
      · cases h
    refine ⟨he, by omega, fun ha => ?_⟩
    obtain ⟨a1, a2, a3, a4, a5, a6⟩ := ha
    change restartArea (areaOf page) (systemPageSize page) = _ at h
    unfold restartArea at h
    rw [e1, e2, e3, e4, hsz] at h
    simp only [bind, Except.bind] at h
    rw [if_neg (by omega), if_neg (by omega), if_neg (by omega)] at h
    cases h

theorem finishInit_error {size n : Nat} {p1 p2 : Option Bytes} {version : Nat × Nat} {area : Bytes} {e : Exc}
    (h : finishInit n p1 p2 size version area = .error e) : e = .LogFileException ∨ (e = .StructError ∧ area.length < 40) := by
  by_cases hl : area.length < 40
  · unfold finishInit at h
    rcases exc_bind_error h with h | ⟨a, h1, h⟩
    · exact .inr ⟨(unpackLE_error122 h).1, hl⟩
    split at h
    · cases h; exact .inl rfl
    rcases exc_bind_error h with h | ⟨b, h2, h⟩
    · exact .inr ⟨(unpackLE_error122 h).1, hl⟩
    rcases exc_bind_error h with h | ⟨c, h3, h⟩
    · exact .inr ⟨(unpackLE_error122 h).1, hl⟩
    split at h
    · cases h; exact .inl rfl
    · cases h
  · have e1 : recordHeaderLength area = .ok _ := unpackLE_of_length (by rw [slice_length]; omega)
    have e2 : logPageDataOffset area = .ok _ := unpackLE_of_length (by rw [slice_length]; omega)
    have e3 : sequenceNumberBits area = .ok _ := unpackLE_of_length (by rw [slice_length]; omega)
    unfold finishInit at h
    rw [e1, e2, e3] at h
    simp only [bind, Except.bind] at h
    split at h
    · cases h; exact .inl rfl
    split at h
    · cases h; exact .inl rfl
    · cases h

/-- C122: what the exception that refuses a log file says about it.  A log file is refused with LogFileException; with
EmptyLogFileException, and then its two restart pages are filled with 0xFF; with NotImplementedError, and then one of
them has intact sectors and an unknown version or page size; or with RestartAreaException, and then the area of the restart
page that is used does not pass the checks.  The only other exception is `struct.error`: the area of the page that is used
begins less than 24 bytes before the end of the page, or it passes the checks and begins less than 40 bytes before it. -/
theorem C122_errors (file : Bytes) (e : Exc) (h : Parser.init file = .error e) :
    e = .LogFileException ∨
    (e = .EmptyLogFileException ∧ slice file 0 8192 = List.replicate 8192 0xFF) ∨
    (e = .NotImplementedError ∧ (UnsupportedRestart (slice file 0 4096) ∨ UnsupportedRestart (slice file 4096 8192))) ∨
    (e = .RestartAreaException ∧ ∃ page, UsedRestart file page ∧ ¬ ValidArea page) ∨
    (e = .StructError ∧ ∃ page, UsedRestart file page ∧ ((areaOf page).length < 24 ∨ (ValidArea page ∧ (areaOf page).length < 40))) := by
  unfold Parser.init at h
  dsimp only at h
  change (if (slice file 0 4096).length ≠ 4096 ∨ (slice file 4096 8192).length ≠ 4096 then _
    else if slice file 0 4096 = slice file 4096 8192 ∧ slice file 4096 8192 = List.replicate 4096 0xFF then _ else _) = _ at h
  split at h
  · cases h; exact .inl rfl
  split at h
  · rename_i hl hff
    cases h
    refine .inr (.inl ⟨rfl, ?_⟩)
    have hsplit : slice file 0 8192 = slice file 0 4096 ++ slice file 4096 8192 := by
      unfold slice
      rw [List.drop_zero, show 8192 - 0 = 4096 + (8192 - 4096) from rfl, List.take_add]
    rw [hsplit, hff.1, hff.2, List.replicate_append_replicate]
  split at h
  · rename_i e' h1
    cases h
    obtain ⟨rfl, hu⟩ := tryRestartPage_error h1
    exact .inr (.inr (.inl ⟨rfl, .inl hu⟩))
  rename_i p1 hp1
  split at h
  · rename_i e' h1
    cases h
    obtain ⟨rfl, hu⟩ := tryRestartPage_error h1
    exact .inr (.inr (.inl ⟨rfl, .inr hu⟩))
  rename_i p2 hp2
  change tryRestartPage (slice file 0 4096) = _ at hp1
  change tryRestartPage (slice file 4096 8192) = _ at hp2
  have key : ∀ page, UsedRestart file page → (∃ raw, ValidRestart raw page) → ∀ e', getRestartArea page = .error e' → e' = e →
      (e = .RestartAreaException ∧ ∃ page, UsedRestart file page ∧ ¬ ValidArea page) ∨
      (e = .StructError ∧ ∃ page, UsedRestart file page ∧ ((areaOf page).length < 24 ∨ (ValidArea page ∧ (areaOf page).length < 40))) := by
    intro page hu ⟨raw, hv⟩ e' he' heq
    cases heq
    rcases getRestartArea_error hv he' with ⟨h1, -, h2⟩ | ⟨h1, h2⟩
    · exact .inl ⟨h1, page, hu, h2⟩
    · exact .inr ⟨h1, page, hu, .inl h2⟩
  split at h
  · rename_i e' hc
    cases h
    unfold chooseRestart at hc
    split at hc
    · cases hc; exact .inl rfl
    · rename_i b
      cases hg : getRestartArea b with
      | ok a => rw [hg] at hc; cases hc
      | error e' =>
        rw [hg] at hc
        cases hc
        have hv := tryRestartPage_page hp2
        exact .inr (.inr (.inr (key b (.inr ⟨tryRestartPage_none hp1, hv⟩) ⟨_, hv⟩ _ hg rfl)))
    · rename_i a
      cases hg : getRestartArea a with
      | ok a => rw [hg] at hc; cases hc
      | error e' =>
        rw [hg] at hc
        cases hc
        have hv := tryRestartPage_page hp1
        exact .inr (.inr (.inr (key a (.inl hv) ⟨_, hv⟩ _ hg rfl)))
    · rename_i a b
      split at hc
      · rename_i e' hg
        cases hc
        have hv := tryRestartPage_page hp1
        exact .inr (.inr (.inr (key a (.inl hv) ⟨_, hv⟩ _ hg rfl)))
      split at hc
      · cases hc; exact .inl rfl
      split at hc
      · cases hc; exact .inl rfl
      · cases hc
  · rename_i size version area hc
    rcases finishInit_error h with h | ⟨h, hl⟩
    · exact .inl h
    refine .inr (.inr (.inr (.inr ⟨h, ?_⟩)))
    unfold chooseRestart at hc
    split at hc
    · cases hc
    · rename_i b
      obtain ⟨r, hr, hc⟩ := map_ok hc
      cases hc
      have hv := tryRestartPage_page hp2
      obtain ⟨rfl, ha⟩ := getRestartArea_ok hv hr
      exact ⟨b, .inr ⟨tryRestartPage_none hp1, hv⟩, .inr ⟨ha, hl⟩⟩
    · rename_i a
      obtain ⟨r, hr, hc⟩ := map_ok hc
      cases hc
      have hv := tryRestartPage_page hp1
      obtain ⟨rfl, ha⟩ := getRestartArea_ok hv hr
      exact ⟨a, .inl hv, .inr ⟨ha, hl⟩⟩
    · rename_i a b
      split at hc
      · cases hc
      rename_i r hr
      obtain ⟨-, hc⟩ := of_ite_error hc
      obtain ⟨-, hc⟩ := of_ite_error hc
      cases hc
      have hv := tryRestartPage_page hp1
      obtain ⟨rfl, ha⟩ := getRestartArea_ok hv hr
      exact ⟨a, .inl hv, .inr ⟨ha, hl⟩⟩

/-- C122, the part of the claim that holds: when the areas of both restart pages have room for their fields (40 bytes), no
exception other than those that the package declares, and NotImplementedError, comes from opening a log file. -/
theorem C122_declared_partial (file : Bytes) (hroom : ∀ page, ValidRestart (slice file 0 4096) page ∨ ValidRestart (slice file 4096 8192) page →
      leNat (slice page 24 26) + 40 ≤ page.length) (e : Exc) (h : Parser.init file = .error e) :
    e ∈ [.LogFileException, .EmptyLogFileException, .NotImplementedError, .RestartAreaException] := by
  rcases C122_errors file e h with h | h | h | h | ⟨-, page, hu, h⟩
  · rw [h]; decide
  · rw [h.1]; decide
  · rw [h.1]; decide
  · rw [h.1]; decide
  · have := hroom page (hu.elim .inl (fun h => .inr h.2))
    have hl : (areaOf page).length = page.length - leNat (slice page 24 26) := by unfold areaOf; rw [List.length_drop]
    omega

/-- C122: a file is reported as empty exactly when it begins with two pages of 0xFF. -/
theorem C122_empty (file : Bytes) : Parser.init file = .error .EmptyLogFileException ↔ slice file 0 8192 = List.replicate 8192 0xFF := by
  constructor
  · intro h
    rcases C122_errors file _ h with h | h | h | h | h
    · cases h
    · exact h.2
    · cases h.1
    · cases h.1
    · cases h.1
  · intro h
    have h1 : slice file 0 4096 = List.replicate 4096 0xFF := by
      have : slice (slice file 0 8192) 0 4096 = slice file 0 4096 := by rw [slice_slice _ _ _ _ _ (by decide)]
      rw [← this, h]
      unfold slice
      rw [List.drop_zero, List.take_replicate]
      rfl
    have h2 : slice file 4096 8192 = List.replicate 4096 0xFF := by
      have : slice (slice file 0 8192) 4096 8192 = slice file 4096 8192 := by rw [slice_slice _ _ _ _ _ (by decide)]
      rw [← this, h]
      unfold slice
      rw [List.drop_replicate, List.take_replicate]
      rfl
    unfold Parser.init
    dsimp only
    change (if (slice file 0 4096).length ≠ 4096 ∨ (slice file 4096 8192).length ≠ 4096 then _
      else if slice file 0 4096 = slice file 4096 8192 ∧ slice file 4096 8192 = List.replicate 4096 0xFF then _ else _) = _
    rw [h1, h2, if_neg (by rw [List.length_replicate]; decide), if_pos ⟨rfl, rfl⟩]

/-- A restart page with a given place of the restart area and a given version, and zeros in the area. -/
def restartAt (offset major minor : Nat) : Bytes :=
  SampleLog.page ([[0x52, 0x53, 0x54, 0x52], natLE 2 30, natLE 2 9, zeros 8, natLE 4 4096, natLE 4 4096, natLE 2 offset, natLE 2 minor,
    natLE 2 major, [1, 0], zeros 16].flatten)

/-- C122 fails as stated: a restart area at the end of the page gives `struct.error`. -/
theorem C122_struct_error : Parser.init (restartAt 4080 1 1 ++ zeros 4096) = .error .StructError := by
  have h : (match Parser.init (restartAt 4080 1 1 ++ zeros 4096) with | .ok _ => none | .error e => some e) = some .StructError := by
    decide +kernel
  split at h
  · cases h
  · rename_i e he
    cases h
    exact he

/-- C122: an unknown version in the first restart page refuses the file even when the second one is that of a good file (which opens when
the first one is damaged in another way). -/
theorem C122_second_page_not_tried : Parser.init (restartAt 48 9 9 ++ SampleLog.restart 40 1000) = .error .NotImplementedError ∧
    ∃ p, Parser.init (zeros 4096 ++ SampleLog.restart 40 1000) = .ok p := by
  constructor
  · have h : (match Parser.init (restartAt 48 9 9 ++ SampleLog.restart 40 1000) with | .ok _ => none | .error e => some e) = some .NotImplementedError := by
      decide +kernel
    split at h
    · cases h
    · rename_i e he
      cases h
      exact he
  · have h : (match Parser.init (zeros 4096 ++ SampleLog.restart 40 1000) with | .ok _ => true | .error _ => false) = true := by
      decide +kernel
    split at h
    · rename_i p hp
      exact ⟨p, hp⟩
    · cases h

/-- Two restart pages with room for the area, and a number of bits that is too small. -/
example : (∀ page, ValidRestart (slice (SampleLog.restart 1 1000 ++ SampleLog.restart 1 1001) 0 4096) page ∨
      ValidRestart (slice (SampleLog.restart 1 1000 ++ SampleLog.restart 1 1001) 4096 8192) page → leNat (slice page 24 26) + 40 ≤ page.length) ∧
    Parser.init (SampleLog.restart 1 1000 ++ SampleLog.restart 1 1001) = .error .LogFileException := by
  have key : ∀ i j, (match restartPage (slice (SampleLog.restart 1 1000 ++ SampleLog.restart 1 1001) i j) with
      | .ok page => decide (leNat (slice page 24 26) + 40 ≤ page.length) | .error _ => true) = true →
      ∀ page, ValidRestart (slice (SampleLog.restart 1 1000 ++ SampleLog.restart 1 1001) i j) page → leNat (slice page 24 26) + 40 ≤ page.length := by
    intro i j h page hv
    rw [(restartPage_iff _ _).mpr hv] at h
    exact of_decide_eq_true h
  refine ⟨fun page h => h.elim (key 0 4096 (by decide +kernel) page) (key 4096 8192 (by decide +kernel) page), ?_⟩
  have h : (match Parser.init (SampleLog.restart 1 1000 ++ SampleLog.restart 1 1001) with | .ok _ => none | .error e => some e) = some .LogFileException := by
    decide +kernel
  split at h
  · cases h
  · rename_i e he
    cases h
    exact he

end Verif.Props
