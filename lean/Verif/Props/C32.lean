/-
Property C32: log sequence numbers and positions in the log file.
-/
import Verif.Proof.LogFile
namespace Verif.Props
open Verif.LogFile

/-- C32: what the conversions compute, for every parser that the constructor accepts: with `b` bits for
the sequence number, an LSN is `sequence number * 2^(64-b) + position / 8`. -/
theorem C32_meaning (file : Bytes) (p : Parser) (hp : Parser.init file = .ok p) (lsn : Nat) :
    (p.lsnToOffset lsn).1 * 4096 + (p.lsnToOffset lsn).2 = 8 * (lsn % 2 ^ (64 - p.sequenceNumberBits)) ∧
    (p.lsnToOffset lsn).2 < 4096 ∧
    p.lsnToSeqnum lsn = lsn / 2 ^ (64 - p.sequenceNumberBits) := by
  obtain ⟨-, -, h3, h4, h5, -⟩ := init_facts hp
  rw [lsnToOffset_eq p h4 h5 lsn, h3]
  refine ⟨?_, ?_, ?_⟩
  · dsimp only; omega
  · dsimp only; omega
  · unfold Parser.lsnToSeqnum; rw [Nat.shiftRight_eq_div_pow]

/-- C32: from an LSN to a position and a sequence number and back. -/
theorem C32_roundtrip (file : Bytes) (p : Parser) (hp : Parser.init file = .ok p) (lsn : Nat) :
    p.offsetToLsn (p.lsnToOffset lsn).1 (p.lsnToOffset lsn).2 (p.lsnToSeqnum lsn) = lsn := by
  obtain ⟨h1, -, h2⟩ := C32_meaning file p hp lsn
  obtain ⟨-, -, h3, h4, h5, -⟩ := init_facts hp
  have hlt : lsn % 2 ^ (64 - p.sequenceNumberBits) < 2 ^ (64 - p.sequenceNumberBits) := Nat.mod_lt _ (Nat.two_pow_pos _)
  rw [offsetToLsn_eq p _ _ _ (by rw [h3, h1]; omega), h3, h1, h2, Nat.mul_div_cancel_left _ (by decide), Nat.mul_comm]
  exact Nat.div_add_mod lsn _

/-- C32: two different LSNs never have the same position and sequence number. -/
theorem C32_injective (file : Bytes) (p : Parser) (hp : Parser.init file = .ok p) (lsn lsn' : Nat)
    (h : p.lsnToOffset lsn = p.lsnToOffset lsn') (h' : p.lsnToSeqnum lsn = p.lsnToSeqnum lsn') : lsn = lsn' := by
  rw [← C32_roundtrip file p hp lsn, ← C32_roundtrip file p hp lsn', h, h']

/-- C32: from a position (a multiple of 8 that fits in the bits left for it) and a sequence number to
an LSN and back. -/
theorem C32_position_roundtrip (file : Bytes) (p : Parser) (hp : Parser.init file = .ok p) (page offset seqnum : Nat)
    (ho : offset < 4096) (h8 : offset % 8 = 0) (hfit : page * 4096 + offset < 8 * 2 ^ (64 - p.sequenceNumberBits)) :
    p.lsnToOffset (p.offsetToLsn page offset seqnum) = (page, offset) ∧
    p.lsnToSeqnum (p.offsetToLsn page offset seqnum) = seqnum := by
  obtain ⟨-, -, h3, h4, h5, -⟩ := init_facts hp
  have hq : (page * 4096 + offset) / 8 < 2 ^ (64 - p.sequenceNumberBits) := by omega
  rw [lsnToOffset_eq p h4 h5, offsetToLsn_eq p _ _ _ (by rw [h3]; exact hfit), h3]
  refine ⟨?_, ?_⟩
  · rw [Nat.mul_comm seqnum, Nat.mul_add_mod, Nat.mod_eq_of_lt hq,
      show 8 * ((page * 4096 + offset) / 8) = page * 4096 + offset by omega]
    congr 1 <;> omega
  · unfold Parser.lsnToSeqnum
    rw [Nat.shiftRight_eq_div_pow, Nat.mul_comm seqnum, Nat.mul_add_div (Nat.two_pow_pos _), Nat.div_eq_of_lt hq, Nat.add_zero]

/-- C32: a position that does not fit is a different matter: the LSN computed for page 2 of a log with
54 bits for the sequence number leads back to page 0. -/
theorem C32_position_too_large (p : Parser) (hs : p.logPageSize = 4096) (hb : p.sequenceNumberBits = 54) :
    p.offsetToLsn 2 64 1 = 1032 ∧ p.lsnToOffset 1032 = (0, 64) := by
  unfold Parser.offsetToLsn Parser.lsnToOffset
  rw [hs, hb]
  decide

end Verif.Props
