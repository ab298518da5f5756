/-
Basic facts about the log file parser: what its constructor guarantees and what an LSN encodes.
-/
import Verif.Model.LogFile.Pages
import Verif.Basic.Bits
namespace Verif.LogFile

theorem bind_ok {α β : Type} {x : Except Exc α} {f : α → Except Exc β} {b : β} (h : (x >>= f) = .ok b) :
    ∃ a, x = .ok a ∧ f a = .ok b := by
  cases x with
  | error e => cases h
  | ok a => exact ⟨a, rfl, h⟩

theorem map_ok {α β : Type} {x : Except Exc α} {f : α → β} {b : β} (h : x.map f = .ok b) :
    ∃ a, x = .ok a ∧ f a = b := by
  cases x with
  | error e => cases h
  | ok a => cases h; exact ⟨a, rfl, rfl⟩

/-- An accepted restart page gives the fixed page size. -/
theorem restartPage_size {raw buf : Bytes} (h : restartPage raw = .ok buf) : restartLogPageSize buf = 4096 := by
  unfold restartPage at h
  split at h
  · cases h
  · rename_i b e _
    obtain ⟨-, h⟩ := of_ite_error h
    obtain ⟨-, h⟩ := of_ite_error h
    obtain ⟨-, h⟩ := of_ite_error h
    obtain ⟨-, h⟩ := of_ite_error h
    obtain ⟨-, h⟩ := of_ite_error h
    obtain ⟨h1, h⟩ := of_ite_error h
    obtain ⟨-, h⟩ := of_ite_error h
    cases h
    exact Decidable.of_not_not h1

theorem tryRestartPage_some {raw buf : Bytes} (h : tryRestartPage raw = .ok (some buf)) : restartPage raw = .ok buf := by
  unfold tryRestartPage at h
  split at h
  · cases h; assumption
  · split at h <;> cases h

/-- What the constructor guarantees. -/
theorem init_facts {file : Bytes} {p : Parser} (h : Parser.init file = .ok p) :
    p.fileSize = file.length ∧ 8192 ≤ file.length ∧ p.logPageSize = 4096 ∧
    3 ≤ p.sequenceNumberBits ∧ p.sequenceNumberBits < 64 ∧ 48 ≤ p.recordHeaderLength := by
  unfold Parser.init at h
  dsimp only at h
  obtain ⟨h1, h⟩ := of_ite_error h
  obtain ⟨-, h⟩ := of_ite_error h
  split at h
  · cases h
  rename_i p1 hp1
  split at h
  · cases h
  rename_i p2 hp2
  split at h
  · cases h
  rename_i size version area hc
  have hsize : size = 4096 := by
    unfold chooseRestart at hc
    split at hc
    · cases hc
    · obtain ⟨r, -, hr⟩ := map_ok hc
      cases hr
      exact restartPage_size (tryRestartPage_some hp2)
    · obtain ⟨r, -, hr⟩ := map_ok hc
      cases hr
      exact restartPage_size (tryRestartPage_some hp1)
    · split at hc
      · cases hc
      · obtain ⟨-, hc⟩ := of_ite_error hc
        obtain ⟨-, hc⟩ := of_ite_error hc
        cases hc
        exact restartPage_size (tryRestartPage_some hp1)
  unfold finishInit at h
  obtain ⟨hl, -, h⟩ := bind_ok h
  obtain ⟨h2, h⟩ := of_ite_error h
  obtain ⟨dof, -, h⟩ := bind_ok h
  obtain ⟨bits, -, h⟩ := bind_ok h
  obtain ⟨h3, h⟩ := of_ite_error h
  cases h
  rw [slice_length, slice_length] at h1
  unfold pageSize at h1
  refine ⟨rfl, by omega, hsize, ?_, ?_, ?_⟩ <;> dsimp only <;> omega

/-! ### LSNs -/

/-- The absolute offset in an LSN is eight times its low part. -/
theorem absolute_eq (lsn b : Nat) (hb : 3 ≤ b) (hb' : b < 64) :
    ((lsn <<< b) &&& 0xFFFFFFFFFFFFFFFF) >>> (b - 3) = 8 * (lsn % 2 ^ (64 - b)) := by
  rw [show (0xFFFFFFFFFFFFFFFF : Nat) = 2 ^ 64 - 1 by decide, and_mask, Nat.shiftLeft_eq, Nat.shiftRight_eq_div_pow]
  have h64 : (2 : Nat) ^ 64 = 2 ^ (64 - b) * 2 ^ b := by rw [← Nat.pow_add]; congr 1; omega
  rw [h64, Nat.mul_mod_mul_right]
  have hbb : (2 : Nat) ^ b = 8 * 2 ^ (b - 3) := by
    rw [show (8 : Nat) = 2 ^ 3 by decide, ← Nat.pow_add]; congr 1; omega
  rw [hbb, ← Nat.mul_assoc, Nat.mul_div_cancel _ (Nat.two_pow_pos _), Nat.mul_comm]

theorem lsnToOffset_eq (p : Parser) (hb : 3 ≤ p.sequenceNumberBits) (hb' : p.sequenceNumberBits < 64) (lsn : Nat) :
    p.lsnToOffset lsn = (8 * (lsn % 2 ^ (64 - p.sequenceNumberBits)) / p.logPageSize,
      8 * (lsn % 2 ^ (64 - p.sequenceNumberBits)) % p.logPageSize) := by
  unfold Parser.lsnToOffset
  rw [absolute_eq lsn _ hb hb']

theorem offsetToLsn_eq (p : Parser) (page offset seqnum : Nat)
    (hpos : page * p.logPageSize + offset < 8 * 2 ^ (64 - p.sequenceNumberBits)) :
    p.offsetToLsn page offset seqnum = seqnum * 2 ^ (64 - p.sequenceNumberBits) + (page * p.logPageSize + offset) / 8 := by
  unfold Parser.offsetToLsn
  rw [Nat.or_comm, Nat.shiftRight_eq_div_pow, shiftLeft_or_of_lt]
  rw [show (2 : Nat) ^ 3 = 8 by decide]; omega

end Verif.LogFile
