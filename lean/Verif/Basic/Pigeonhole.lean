/-
A list without duplicates whose elements are below `n` has at most `n` elements.
-/
namespace Verif

theorem nodup_bounded_length : ∀ (n : Nat) (l : List Nat), l.Nodup → (∀ x ∈ l, x < n) → l.length ≤ n
  | 0, l, _, h => by
    cases l with
    | nil => simp
    | cons x xs => exact absurd (h x (by simp)) (by omega)
  | n + 1, l, hn, h => by
    have ih := nodup_bounded_length n (l.erase n) (hn.erase n) (by
      intro x hx
      have h1 := h x (List.mem_of_mem_erase hx)
      have h2 : x ≠ n := by
        intro he
        subst he
        exact (List.Nodup.not_mem_erase hn) hx
      omega)
    have := List.length_erase_of_mem (a := n) (l := l)
    by_cases hm : n ∈ l
    · have := this hm; omega
    · rw [List.erase_of_not_mem hm] at ih; omega

end Verif
