/-
Loops that write rows (`Verif.Scripts`): when they end without an exception, and what they have written.
-/
import Verif.Model.Scripts.Tables
namespace Verif.Scripts

theorem append_err {α : Type} (a b : Gen α) : (a.append b).err = none ↔ a.err = none ∧ b.err = none := by
  unfold Gen.append
  cases h : a.err with
  | none => simp
  | some e => simp [h]

theorem append_items {α : Type} {a b : Gen α} (h : a.err = none) : (a.append b).items = a.items ++ b.items := by
  unfold Gen.append; rw [h]

theorem andThen_err {α β : Type} (x : Except Exc α) (f : α → Gen β) : (andThen x f).err = none ↔ ∃ a, x = .ok a ∧ (f a).err = none := by
  unfold andThen
  cases x with
  | error e => exact ⟨(fun h => by cases h), (fun ⟨_, h, _⟩ => by cases h)⟩
  | ok a => exact ⟨fun h => ⟨a, rfl, h⟩, (fun ⟨_, h, h'⟩ => by cases h; exact h')⟩

theorem andThen_ok {α β : Type} (a : α) (f : α → Gen β) : andThen (.ok a) f = f a := rfl

theorem flatMap_same {α β : Type} {f g : α → List β} : ∀ {l : List α}, (∀ x ∈ l, f x = g x) → l.flatMap f = l.flatMap g
  | [], _ => rfl
  | x :: l, h => by rw [List.flatMap_cons, List.flatMap_cons, h x (by simp), flatMap_same fun y hy => h y (by simp [hy])]

theorem forEach_err {α β : Type} (f : α → Gen β) : ∀ l : List α, (forEach f l).err = none ↔ ∀ x ∈ l, (f x).err = none
  | [] => by simp [forEach, Gen.done]
  | x :: l => by
    unfold forEach
    rw [append_err, forEach_err f l]
    simp

theorem forEach_items {α β : Type} (f : α → Gen β) : ∀ l : List α, (∀ x ∈ l, (f x).err = none) →
    (forEach f l).items = l.flatMap fun x => (f x).items
  | [], _ => rfl
  | x :: l, h => by
    unfold forEach
    rw [append_items (h x (by simp)), forEach_items f l fun y hy => h y (by simp [hy]), List.flatMap_cons]

theorem forGen_err {α β : Type} (f : α → Gen β) (g : Gen α) : (forGen f g).err = none ↔ (∀ x ∈ g.items, (f x).err = none) ∧ g.err = none := by
  unfold forGen; rw [append_err, forEach_err]

theorem forGen_items {α β : Type} (f : α → Gen β) (g : Gen α) (h : (forGen f g).err = none) :
    (forGen f g).items = g.items.flatMap fun x => (f x).items := by
  have h' := (forGen_err f g).1 h
  unfold forGen
  rw [append_items ((forEach_err f _).2 h'.1), forEach_items f _ h'.1, List.append_nil]

theorem append_some {α : Type} {a b : Gen α} {e : Exc} (h : (a.append b).err = some e) : a.err = some e ∨ b.err = some e := by
  unfold Gen.append at h
  cases ha : a.err with
  | none => rw [ha] at h; exact .inr h
  | some x => rw [ha] at h; exact .inl h

theorem andThen_some {α β : Type} {x : Except Exc α} {f : α → Gen β} {e : Exc} (h : (andThen x f).err = some e) :
    x = .error e ∨ ∃ a, x = .ok a ∧ (f a).err = some e := by
  unfold andThen at h
  cases x with
  | error y => cases h; exact .inl rfl
  | ok a => exact .inr ⟨a, rfl, h⟩

theorem forEach_some {α β : Type} {f : α → Gen β} {e : Exc} : ∀ {l : List α}, (forEach f l).err = some e → ∃ x ∈ l, (f x).err = some e
  | [], h => by cases h
  | x :: l, h => by
    unfold forEach at h
    rcases append_some h with h | h
    · exact ⟨x, by simp, h⟩
    · obtain ⟨y, hy, h'⟩ := forEach_some h
      exact ⟨y, by simp [hy], h'⟩

theorem forGen_some {α β : Type} {f : α → Gen β} {g : Gen α} {e : Exc} (h : (forGen f g).err = some e) : (∃ x ∈ g.items, (f x).err = some e) ∨ g.err = some e := by
  unfold forGen at h
  rcases append_some h with h | h
  · exact .inl (forEach_some h)
  · exact .inr h

/-- A loop ends, or stops in one of the bodies: then those before have been completed. -/
theorem forEach_split {α β : Type} (f : α → Gen β) : ∀ l : List α, (∀ x ∈ l, (f x).err = none) ∨
    ∃ pre x post e, l = pre ++ x :: post ∧ (∀ y ∈ pre, (f y).err = none) ∧ (f x).err = some e ∧
      forEach f l = ⟨(pre.flatMap fun y => (f y).items) ++ (f x).items, some e⟩
  | [] => .inl (by simp)
  | x :: l => by
    cases hx : (f x).err with
    | some e =>
      refine .inr ⟨[], x, l, e, rfl, by simp, hx, ?_⟩
      unfold forEach Gen.append
      rw [hx]
      dsimp only
      rw [List.flatMap_nil, List.nil_append, ← hx]
    | none =>
      rcases forEach_split f l with h | ⟨pre, y, post, e, h1, h2, h3, h4⟩
      · refine .inl fun y hy => ?_
        rcases List.mem_cons.1 hy with rfl | hy
        · exact hx
        · exact h y hy
      · refine .inr ⟨x :: pre, y, post, e, by rw [h1]; rfl, ?_, h3, ?_⟩
        · intro z hz
          rcases List.mem_cons.1 hz with rfl | hz
          · exact hx
          · exact h2 z hz
        · unfold forEach
          rw [h4]
          unfold Gen.append
          rw [hx]
          dsimp only
          rw [List.flatMap_cons, List.append_assoc]

end Verif.Scripts
