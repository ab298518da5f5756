/-
The decimal text of a number.
-/
import Verif.Model.Scripts.Text
import Verif.Spec.Text
namespace Verif.Proof.Decimal
open Verif.Scripts Verif.Spec.Text

theorem digit (d : Nat) (h : d < 10) : d.digitChar.toNat = 0x30 + d := by
  revert d
  decide

theorem decimal_step (n : Nat) : decimal n = if n < 10 then [0x30 + n] else decimal (n / 10) ++ [0x30 + n % 10] := by
  unfold decimal
  rw [Nat.toDigits_eq_if (by decide)]
  split
  · next h => rw [List.map_singleton, digit n h]
  · rw [List.map_append, List.map_singleton, digit _ (by omega)]

theorem decimal_value (n : Nat) : decimalValue (decimal n) = some n := by
  induction n using Nat.strongRecOn with
  | _ n ih =>
    rw [decimal_step]
    split
    · next h =>
      unfold decimalValue
      simp only [List.foldl_cons, List.foldl_nil, Option.bind_some]
      rw [if_pos (by omega)]
      congr 1
      omega
    · next h =>
      have := ih (n / 10) (by omega)
      unfold decimalValue at this ⊢
      rw [List.foldl_append, this]
      simp only [List.foldl_cons, List.foldl_nil, Option.bind_some]
      rw [if_pos (by omega)]
      congr 1
      omega

theorem decimal_ne_nil (n : Nat) : decimal n ≠ [] := by
  rw [decimal_step]
  split
  · simp
  · simp

/-- No leading zero. -/
theorem decimal_head (n : Nat) (hn : n ≠ 0) : (decimal n).head? ≠ some 0x30 := by
  induction n using Nat.strongRecOn with
  | _ n ih =>
    rw [decimal_step]
    split
    · next h =>
      intro hc
      cases n with
      | zero => exact hn rfl
      | succ n => simp at hc
    · next h =>
      have := ih (n / 10) (by omega) (by omega)
      rw [List.head?_append]
      cases hd : (decimal (n / 10)).head? with
      | none =>
        rw [List.head?_eq_none_iff] at hd
        exact absurd hd (decimal_ne_nil _)
      | some x =>
        rw [hd] at this
        exact this

theorem decimal_canonical (n : Nat) : decimal n = [0x30] ∨ (decimal n).head? ≠ some 0x30 := by
  by_cases hn : n = 0
  · subst hn; exact .inl (by decide)
  · exact .inr (decimal_head n hn)

end Verif.Proof.Decimal
