/-
Python strings: `str.join`, and the fact that joined lists of names can be told apart.
-/
import Verif.Basic.Utf16
namespace Verif

/-- Python `sep.join(parts)`. -/
def pyJoin (sep : Str) : List Str → Str
  | [] => []
  | [s] => s
  | s :: t :: rest => s ++ sep ++ pyJoin sep (t :: rest)

theorem append_sep_inj {c : Nat} {s1 s2 a b x y : Str} (ha : c ∉ a) (hb : c ∉ b) (hs : c ∉ s1)
    (h : a ++ (s1 ++ c :: s2) ++ x = b ++ (s1 ++ c :: s2) ++ y) : a = b ∧ x = y := by
  have key : ∀ (u v p q : Str), c ∉ u → c ∉ v → u ++ c :: p = v ++ c :: q → u = v ∧ p = q := by
    intro u
    induction u with
    | nil =>
      intro v p q _ hv h
      cases v with
      | nil => simpa using h
      | cons z v => simp only [List.nil_append, List.cons_append, List.cons.injEq] at h; simp [← h.1] at hv
    | cons w u ih =>
      intro v p q hu hv h
      cases v with
      | nil => simp only [List.nil_append, List.cons_append, List.cons.injEq] at h; simp [h.1] at hu
      | cons z v =>
        simp only [List.cons_append, List.cons.injEq] at h
        simp only [List.mem_cons, not_or] at hu hv
        obtain ⟨e1, e2⟩ := ih v p q hu.2 hv.2 h.2
        exact ⟨by rw [h.1, e1], e2⟩
  have h' : (a ++ s1) ++ c :: (s2 ++ x) = (b ++ s1) ++ c :: (s2 ++ y) := by simpa using h
  obtain ⟨e1, e2⟩ := key _ _ _ _ (by simp [ha, hs]) (by simp [hb, hs]) h'
  exact ⟨List.append_cancel_right e1, List.append_cancel_left e2⟩

/-- Joined lists of non-empty names that do not contain a character of the separator are equal only
when the lists are. -/
theorem pyJoin_inj {c : Nat} {s1 s2 : Str} (hs : c ∉ s1) : ∀ (l m : List Str),
    (∀ s ∈ l, s ≠ [] ∧ c ∉ s) → (∀ s ∈ m, s ≠ [] ∧ c ∉ s) →
    pyJoin (s1 ++ c :: s2) l = pyJoin (s1 ++ c :: s2) m → l = m
  | [], [], _, _, _ => rfl
  | [], [s], _, hm, h => absurd (by simpa [pyJoin] using h.symm) (hm s (by simp)).1
  | [], s :: t :: r, _, _, h => by simp [pyJoin] at h
  | [s], [], hl, _, h => absurd (by simpa [pyJoin] using h) (hl s (by simp)).1
  | s :: t :: r, [], _, _, h => by simp [pyJoin] at h
  | [s], [t], _, _, h => by simpa [pyJoin] using h
  | [s], t :: u :: r, hl, _, h => by
    exfalso
    apply (hl s (by simp)).2
    have : s = t ++ (s1 ++ c :: s2) ++ pyJoin (s1 ++ c :: s2) (u :: r) := h
    rw [this]; simp
  | t :: u :: r, [s], _, hm, h => by
    exfalso
    apply (hm s (by simp)).2
    have : s = t ++ (s1 ++ c :: s2) ++ pyJoin (s1 ++ c :: s2) (u :: r) := h.symm
    rw [this]; simp
  | s :: t :: r, s' :: t' :: r', hl, hm, h => by
    have h' : s ++ (s1 ++ c :: s2) ++ pyJoin (s1 ++ c :: s2) (t :: r) = s' ++ (s1 ++ c :: s2) ++ pyJoin (s1 ++ c :: s2) (t' :: r') := h
    obtain ⟨e1, e2⟩ := append_sep_inj (hl s (by simp)).2 (hm s' (by simp)).2 hs h'
    rw [e1, pyJoin_inj hs (t :: r) (t' :: r') (fun x hx => hl x (List.mem_cons_of_mem _ hx))
      (fun x hx => hm x (List.mem_cons_of_mem _ hx)) e2]

end Verif
