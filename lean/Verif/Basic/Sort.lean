/-
Stable sorting by a key, as done by Python's `list.sort(key = ...)` (insertion sort: what matters is
the result, which stability determines).
-/
import Verif.Basic.Bytes
namespace Verif

/-- Insert `x` before the first element whose key is not smaller. -/
def insertBy {α} (key : α → Int) (x : α) : List α → List α
  | [] => [x]
  | y :: ys => if key x ≤ key y then x :: y :: ys else y :: insertBy key x ys

/-- `sorted(l, key = key)`. -/
def sortBy {α} (key : α → Int) (l : List α) : List α := l.foldr (insertBy key) []

theorem insertBy_perm {α} (key : α → Int) (x : α) (l : List α) : (insertBy key x l).Perm (x :: l) := by
  induction l with
  | nil => exact List.Perm.refl _
  | cons y ys ih =>
    unfold insertBy
    split
    · exact List.Perm.refl _
    · exact (ih.cons y).trans (List.Perm.swap x y ys)

theorem sortBy_perm {α} (key : α → Int) (l : List α) : (sortBy key l).Perm l := by
  induction l with
  | nil => exact List.Perm.refl _
  | cons x xs ih => exact (insertBy_perm key x _).trans (ih.cons x)

theorem insertBy_sorted {α} (key : α → Int) (x : α) (l : List α) (h : l.Pairwise (fun a b => key a ≤ key b)) :
    (insertBy key x l).Pairwise (fun a b => key a ≤ key b) := by
  induction l with
  | nil => simp [insertBy]
  | cons y ys ih =>
    rw [List.pairwise_cons] at h
    unfold insertBy
    split
    · rename_i hle
      refine List.pairwise_cons.2 ⟨?_, List.pairwise_cons.2 h⟩
      intro a ha
      rcases List.mem_cons.1 ha with rfl | ha
      · exact hle
      · exact Int.le_trans hle (h.1 a ha)
    · rename_i hle
      refine List.pairwise_cons.2 ⟨?_, ih h.2⟩
      intro a ha
      rcases List.mem_cons.1 ((insertBy_perm key x ys).mem_iff.1 ha) with rfl | ha
      · omega
      · exact h.1 a ha

theorem sortBy_sorted {α} (key : α → Int) (l : List α) : (sortBy key l).Pairwise (fun a b => key a ≤ key b) := by
  induction l with
  | nil => exact List.Pairwise.nil
  | cons x xs ih => exact insertBy_sorted key x _ ih

theorem mem_sortBy {α} {key : α → Int} {l : List α} {a : α} : a ∈ sortBy key l ↔ a ∈ l := (sortBy_perm key l).mem_iff

theorem sortBy_of_sorted {α} (key : α → Int) {l : List α} (h : l.Pairwise (fun a b => key a ≤ key b)) : sortBy key l = l := by
  induction l with
  | nil => rfl
  | cons x xs ih =>
    rw [List.pairwise_cons] at h
    show insertBy key x (sortBy key xs) = _
    rw [ih h.2]
    cases xs with
    | nil => rfl
    | cons y ys => unfold insertBy; rw [if_pos (h.1 y (by simp))]

/-- A strictly increasing arrangement is what sorting gives. -/
theorem sortBy_eq_of_perm {α} (key : α → Int) {l s : List α} (hp : l.Perm s)
    (hs : s.Pairwise (fun a b => key a < key b)) : sortBy key l = s := by
  have h1 := sortBy_sorted key l
  have h2 : (sortBy key l).Perm s := (sortBy_perm key l).trans hp
  generalize sortBy key l = t at *
  induction s generalizing t l with
  | nil => exact h2.eq_nil
  | cons x xs ih =>
    rw [List.pairwise_cons] at hs
    cases t with
    | nil => exact absurd h2.symm.eq_nil (by simp)
    | cons y ys =>
      rw [List.pairwise_cons] at h1
      have hxy : y = x := by
        have hx : x ∈ y :: ys := h2.mem_iff.2 (by simp)
        have hy : y ∈ x :: xs := h2.mem_iff.1 (by simp)
        rcases List.mem_cons.1 hx with h | hx
        · exact h.symm
        · rcases List.mem_cons.1 hy with h | hy
          · exact h
          · have a1 := h1.1 x hx
            have a2 := hs.1 y hy
            omega
      subst hxy
      rw [ih (l := xs) (List.Perm.refl _) hs.2 ys h1.2 ((List.perm_cons y).1 h2)]

/-- Sorting keeps the order of elements with the same key. -/
theorem sortBy_stable {α} (key : α → Int) (r : α → α → Prop) {l : List α} (h : l.Pairwise r) :
    (sortBy key l).Pairwise (fun a b => key a < key b ∨ (key a = key b ∧ r a b)) := by
  induction l with
  | nil => exact List.Pairwise.nil
  | cons x xs ih =>
    rw [List.pairwise_cons] at h
    have ih := ih h.2
    have hmem : ∀ a ∈ sortBy key xs, r x a := fun a ha => h.1 a (mem_sortBy.mp ha)
    show (insertBy key x (sortBy key xs)).Pairwise _
    clear h
    generalize sortBy key xs = t at ih hmem
    induction t with
    | nil => simp [insertBy]
    | cons y ys ih2 =>
      rw [List.pairwise_cons] at ih
      unfold insertBy
      split
      · rename_i hle
        refine List.pairwise_cons.2 ⟨fun a ha => ?_, List.pairwise_cons.2 ih⟩
        have hr := hmem a ha
        rcases List.mem_cons.1 ha with rfl | ha
        · rcases Int.lt_or_eq_of_le hle with h | h
          · exact .inl h
          · exact .inr ⟨h, hr⟩
        · have := ih.1 a ha
          rcases Int.lt_or_eq_of_le hle with h | h <;> rcases this with h' | ⟨h', -⟩
          · exact .inl (by omega)
          · exact .inl (by omega)
          · exact .inl (by omega)
          · exact .inr ⟨by omega, hr⟩
      · rename_i hle
        refine List.pairwise_cons.2 ⟨fun a ha => ?_, ih2 ih.2 (fun a ha => hmem a (List.mem_cons_of_mem _ ha))⟩
        rcases List.mem_cons.1 ((insertBy_perm key x ys).mem_iff.1 ha) with rfl | ha
        · exact .inl (by omega)
        · exact ih.1 a ha

theorem filter_insertBy {α} (key : α → Int) (k : Int) (x : α) (l : List α) :
    (insertBy key x l).filter (fun a => decide (key a = k)) = (x :: l).filter (fun a => decide (key a = k)) := by
  induction l with
  | nil => rfl
  | cons y ys ih =>
    unfold insertBy
    split
    · rfl
    · rename_i hle
      by_cases hy : key y = k
      · have hx : ¬ key x = k := by omega
        rw [List.filter_cons_of_pos (p := fun a => decide (key a = k)) (by simpa using hy), ih,
          List.filter_cons_of_neg (p := fun a => decide (key a = k)) (by simpa using hx),
          List.filter_cons_of_neg (p := fun a => decide (key a = k)) (by simpa using hx),
          List.filter_cons_of_pos (p := fun a => decide (key a = k)) (by simpa using hy)]
      · rw [List.filter_cons_of_neg (p := fun a => decide (key a = k)) (by simpa using hy), ih]
        by_cases hx : key x = k
        · rw [List.filter_cons_of_pos (p := fun a => decide (key a = k)) (by simpa using hx),
            List.filter_cons_of_pos (p := fun a => decide (key a = k)) (by simpa using hx),
            List.filter_cons_of_neg (p := fun a => decide (key a = k)) (by simpa using hy)]
        · rw [List.filter_cons_of_neg (p := fun a => decide (key a = k)) (by simpa using hx),
            List.filter_cons_of_neg (p := fun a => decide (key a = k)) (by simpa using hx),
            List.filter_cons_of_neg (p := fun a => decide (key a = k)) (by simpa using hy)]

/-- Sorting keeps the elements with one key, in their order. -/
theorem filter_sortBy {α} (key : α → Int) (k : Int) (l : List α) :
    (sortBy key l).filter (fun a => decide (key a = k)) = l.filter (fun a => decide (key a = k)) := by
  induction l with
  | nil => rfl
  | cons x xs ih =>
    show (insertBy key x (sortBy key xs)).filter _ = _
    rw [filter_insertBy, List.filter_cons, List.filter_cons, ih]

end Verif
