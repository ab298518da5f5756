/-
Property C38: which restart page is used.
-/
import Verif.Props.C37
import Verif.Proof.SampleLog
namespace Verif.Props
open Verif.LogFile

/-- The fields of a restart page and of its restart area. -/
def areaOf (page : Bytes) : Bytes := page.drop (leNat (slice page 24 26))
def currentLsnOf (page : Bytes) : Nat := leNat (slice (areaOf page) 0 8)

/-- A restart page that passes the checks: the sectors are intact, the signature is one of three, the
version is known, the sizes are 4096, and the offset of the restart area is aligned and inside. -/
def ValidRestart (raw page : Bytes) : Prop :=
  (∃ e, unprotectSectors raw = .ok (page, e)) ∧
  slice page 0 4 ∈ ([[0x52, 0x53, 0x54, 0x52], [0x43, 0x48, 0x4B, 0x44], [0x42, 0x41, 0x41, 0x44]] : List Bytes) ∧
  (leNat (slice page 28 30), leNat (slice page 26 28)) ∈ [(1, 1), (2, 0), (3, 0)] ∧
  leNat (slice page 16 20) = 4096 ∧ leNat (slice page 20 24) = 4096 ∧
  leNat (slice page 24 26) ≠ 0 ∧ leNat (slice page 24 26) % 8 = 0 ∧ leNat (slice page 24 26) < page.length ∧ leNat (slice page 24 26) < 4096

/-- The area of a restart page passes the checks. -/
def ValidArea (page : Bytes) : Prop :=
  leNat (slice (areaOf page) 22 24) ≠ 0 ∧ leNat (slice (areaOf page) 22 24) % 8 = 0 ∧
  leNat (slice (areaOf page) 22 24) < (areaOf page).length ∧ leNat (slice (areaOf page) 22 24) < 4096 ∧
  (leNat (slice (areaOf page) 10 12) = 0xFFFF ∨ leNat (slice (areaOf page) 10 12) < leNat (slice (areaOf page) 8 10)) ∧
  (leNat (slice (areaOf page) 12 14) = 0xFFFF ∨ leNat (slice (areaOf page) 12 14) < leNat (slice (areaOf page) 8 10))

theorem restartPage_iff (raw page : Bytes) : restartPage raw = .ok page ↔ ValidRestart raw page := by
  constructor
  · intro h
    unfold restartPage at h
    split at h
    · cases h
    · rename_i buf e he
      obtain ⟨h1, h⟩ := of_ite_error h
      obtain ⟨h2, h⟩ := of_ite_error h
      obtain ⟨h3, h⟩ := of_ite_error h
      obtain ⟨h4, h⟩ := of_ite_error h
      obtain ⟨h5, h⟩ := of_ite_error h
      obtain ⟨h6, h⟩ := of_ite_error h
      obtain ⟨h7, h⟩ := of_ite_error h
      cases h
      have h4 : systemPageSize page = 4096 := Decidable.of_not_not h4
      have h6 : restartLogPageSize page = 4096 := Decidable.of_not_not h6
      rw [h4] at h7
      refine ⟨⟨e, he⟩, Decidable.of_not_not h1, Decidable.of_not_not h2, h4, h6, ?_, ?_, ?_, ?_⟩ <;>
        (have e : leNat (slice page 24 26) = restartOffset page := rfl; rw [e]; omega)
  · rintro ⟨⟨e, h0⟩, h1, h2, h3, h4, h5, h6, h7, h8⟩
    unfold restartPage
    rw [h0]
    dsimp only
    have h3 : systemPageSize page = 4096 := h3
    have h4 : restartLogPageSize page = 4096 := h4
    rw [if_neg (fun h => h h1), if_neg (fun h => h h2), if_neg (by rw [h3]; decide), if_neg (by rw [h3]; decide), if_neg (by rw [h4]; decide), if_neg (by rw [h4]; decide), if_neg]
    rw [h3]
    change restartOffset page ≠ 0 at h5
    change restartOffset page % 8 = 0 at h6
    change restartOffset page < page.length at h7
    change restartOffset page < 4096 at h8
    omega

theorem tryRestartPage_none {raw : Bytes} (h : tryRestartPage raw = .ok none) : ∀ page, ¬ ValidRestart raw page := by
  intro page hv
  unfold tryRestartPage at h
  rw [(restartPage_iff raw page).mpr hv] at h
  cases h

theorem unpackLE_ok_eq {n : Nat} {b : Bytes} {v : Nat} (h : unpackLE n b = .ok v) : v = leNat b ∧ b.length = n := by
  unfold unpackLE at h
  split at h
  · cases h; exact ⟨rfl, by assumption⟩
  · cases h

theorem getRestartArea_ok {raw page area : Bytes} (hv : ValidRestart raw page) (h : getRestartArea page = .ok area) :
    area = areaOf page ∧ ValidArea page := by
  have hsz : systemPageSize page = 4096 := hv.2.2.2.1
  unfold getRestartArea restartArea at h
  obtain ⟨o, h1, h⟩ := bind_ok h
  obtain ⟨h2, h⟩ := of_ite_error h
  obtain ⟨n, h3, h⟩ := bind_ok h
  obtain ⟨f, h4, h⟩ := bind_ok h
  obtain ⟨u, h5, h⟩ := bind_ok h
  obtain ⟨h6, h⟩ := of_ite_error h
  obtain ⟨h7, h⟩ := of_ite_error h
  cases h
  obtain ⟨h1, -⟩ := unpackLE_ok_eq h1
  obtain ⟨h3, -⟩ := unpackLE_ok_eq h3
  obtain ⟨h4, -⟩ := unpackLE_ok_eq h4
  obtain ⟨h5, -⟩ := unpackLE_ok_eq h5
  change o = leNat (slice (areaOf page) 22 24) at h1
  change n = leNat (slice (areaOf page) 8 10) at h3
  change f = leNat (slice (areaOf page) 10 12) at h4
  change u = leNat (slice (areaOf page) 12 14) at h5
  change ¬ (o = 0 ∨ o % 8 ≠ 0 ∨ o ≥ (areaOf page).length ∨ o ≥ systemPageSize page) at h2
  refine ⟨rfl, ?_⟩
  unfold ValidArea
  rw [← h1, ← h3, ← h4, ← h5]
  omega

/-- What the parser takes from the restart page it uses. -/
def UsesPage (p : Parser) (page : Bytes) : Prop :=
  p.logVersion = (leNat (slice page 28 30), leNat (slice page 26 28)) ∧ p.logPageSize = leNat (slice page 20 24) ∧
  p.sequenceNumberBits = leNat (slice (areaOf page) 16 20) ∧ p.recordHeaderLength = leNat (slice (areaOf page) 36 38) ∧
  p.logPageDataOffset = leNat (slice (areaOf page) 38 40) ∧
  48 ≤ p.recordHeaderLength ∧ 3 ≤ p.sequenceNumberBits ∧ p.sequenceNumberBits < 64

theorem finishInit_uses {size n : Nat} {p1 p2 : Option Bytes} {version : Nat × Nat} {page : Bytes} {p : Parser}
    (h : finishInit n p1 p2 size version (areaOf page) = .ok p) (hs : size = leNat (slice page 20 24))
    (hv : version = (leNat (slice page 28 30), leNat (slice page 26 28))) :
    UsesPage p page ∧ p.restartPage1 = p1 ∧ p.restartPage2 = p2 := by
  unfold finishInit at h
  obtain ⟨a, h1, h⟩ := bind_ok h
  obtain ⟨h2, h⟩ := of_ite_error h
  obtain ⟨b, h3, h⟩ := bind_ok h
  obtain ⟨c, h4, h⟩ := bind_ok h
  obtain ⟨h5, h⟩ := of_ite_error h
  cases h
  obtain ⟨h1, -⟩ := unpackLE_ok_eq h1
  obtain ⟨h3, -⟩ := unpackLE_ok_eq h3
  obtain ⟨h4, -⟩ := unpackLE_ok_eq h4
  refine ⟨⟨hv, hs, h4, h1, h3, ?_, ?_, ?_⟩, rfl, rfl⟩ <;> dsimp only <;> omega

instance (p : Parser) (page : Bytes) : Decidable (UsesPage p page) := by unfold UsesPage; infer_instance

/-- C38, what holds: the parser uses a restart page whose checks, and those of its area, pass.  It is the
first page when that one is valid, and the second one only when the first one is not; with two valid
pages both have the same version.  (LSNs are not compared, see `C38_older_page_used`.) -/
theorem C38_valid_page_used_partial (file : Bytes) (p : Parser) (hp : Parser.init file = .ok p) :
    (∃ page, ValidRestart (slice file 0 4096) page ∧ ValidArea page ∧ UsesPage p page ∧ p.restartPage1 = some page ∧
      ∀ other, ValidRestart (slice file 4096 8192) other → p.restartPage2 = some other ∧ p.logVersion = (leNat (slice other 28 30), leNat (slice other 26 28))) ∨
    ((∀ page, ¬ ValidRestart (slice file 0 4096) page) ∧
      ∃ page, ValidRestart (slice file 4096 8192) page ∧ ValidArea page ∧ UsesPage p page ∧ p.restartPage1 = none ∧ p.restartPage2 = some page) := by
  unfold Parser.init at hp
  dsimp only at hp
  obtain ⟨-, hp⟩ := of_ite_error hp
  obtain ⟨-, hp⟩ := of_ite_error hp
  split at hp
  · cases hp
  rename_i p1 hp1
  split at hp
  · cases hp
  rename_i p2 hp2
  split at hp
  · cases hp
  rename_i size version area hc
  change tryRestartPage (slice file 0 4096) = _ at hp1
  change tryRestartPage (slice file 4096 8192) = _ at hp2
  unfold chooseRestart at hc
  split at hc
  · cases hc
  · rename_i b
    obtain ⟨r, hr, hc⟩ := map_ok hc
    cases hc
    have hv := (restartPage_iff _ _).mp (tryRestartPage_some hp2)
    obtain ⟨rfl, ha⟩ := getRestartArea_ok hv hr
    obtain ⟨h1, h2, h3⟩ := finishInit_uses hp rfl rfl
    exact .inr ⟨tryRestartPage_none hp1, b, hv, ha, h1, h2, h3⟩
  · rename_i a
    obtain ⟨r, hr, hc⟩ := map_ok hc
    cases hc
    have hv := (restartPage_iff _ _).mp (tryRestartPage_some hp1)
    obtain ⟨rfl, ha⟩ := getRestartArea_ok hv hr
    obtain ⟨h1, h2, h3⟩ := finishInit_uses hp rfl rfl
    exact .inl ⟨a, hv, ha, h1, h2, fun o ho => absurd ho (tryRestartPage_none hp2 o)⟩
  · rename_i a b
    split at hc
    · cases hc
    rename_i r hr
    obtain ⟨-, hc⟩ := of_ite_error hc
    obtain ⟨hver, hc⟩ := of_ite_error hc
    cases hc
    have hv := (restartPage_iff _ _).mp (tryRestartPage_some hp1)
    obtain ⟨rfl, ha⟩ := getRestartArea_ok hv hr
    obtain ⟨h1, h2, h3⟩ := finishInit_uses hp rfl rfl
    refine .inl ⟨a, hv, ha, h1, h2, fun o ho => ?_⟩
    have hb := tryRestartPage_some hp2
    rw [(restartPage_iff _ _).mpr ho] at hb
    cases hb
    refine ⟨h3, ?_⟩
    rw [h1.1]
    exact Decidable.of_not_not hver

/-- C38 is false as stated: of two valid restart pages the first one is used, although the other one has a
later LSN. -/
theorem C38_older_page_used : ∃ p a b, Parser.init (SampleLog.restart 40 1000 ++ SampleLog.restart 44 2000) = .ok p ∧
    p.restartPage1 = some a ∧ p.restartPage2 = some b ∧ currentLsnOf a = 1000 ∧ currentLsnOf b = 2000 ∧
    UsesPage p a ∧ ¬ UsesPage p b := by
  have h : (match Parser.init (SampleLog.restart 40 1000 ++ SampleLog.restart 44 2000) with
      | .ok p =>
        (match p.restartPage1, p.restartPage2 with
         | some a, some b => decide (currentLsnOf a = 1000 ∧ currentLsnOf b = 2000 ∧ UsesPage p a ∧
             leNat (slice (areaOf b) 16 20) = 44 ∧ p.sequenceNumberBits = 40)
         | _, _ => false)
      | .error _ => false) = true := by
    decide +kernel
  split at h
  · rename_i p hp
    split at h
    · rename_i a b ha hb
      obtain ⟨h1, h2, h3, h4, h5⟩ := of_decide_eq_true h
      refine ⟨p, a, b, hp, ha, hb, h1, h2, h3, fun hu => ?_⟩
      have := hu.2.2.1
      rw [h4, h5] at this
      cases this
    · cases h
  · cases h

end Verif.Props
