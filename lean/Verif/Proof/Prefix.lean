/-
Loops that write rows (`Verif.Scripts`): what they have written when they stop.
-/
import Verif.Proof.Tables
namespace Verif.Scripts

/-- What a generator yields is the beginning of `full`, and all of it unless there is an exception. -/
def Yields {β : Type} (g : Gen β) (full : List β) : Prop := g.items <+: full ∧ (g.err = none → g.items = full)

theorem Yields.of_none {β : Type} {g : Gen β} {full : List β} (h : g.err = none → g.items = full) (h' : g.err ≠ none → g.items = []) : Yields g full := by
  refine ⟨?_, h⟩
  by_cases he : g.err = none
  · rw [h he]; exact List.prefix_refl _
  · rw [h' he]; exact List.nil_prefix

theorem Yields.append {β : Type} {a b : Gen β} {A B : List β} (ha : Yields a A) (hb : a.err = none → Yields b B) : Yields (a.append b) (A ++ B) := by
  unfold Yields Gen.append
  cases h : a.err with
  | none =>
    obtain ⟨h1, h2⟩ := hb h
    dsimp only
    rw [ha.2 h]
    refine ⟨(List.prefix_append_right_inj _).2 h1, fun he => by rw [h2 he]⟩
  | some e =>
    dsimp only
    exact ⟨List.IsPrefix.trans ha.1 (List.prefix_append _ _), (fun he => by cases he)⟩

theorem Yields.andThen {α β : Type} {x : Except Exc α} {f : α → Gen β} {full : List β} (h : ∀ a, x = .ok a → Yields (f a) full) :
    Yields (Scripts.andThen x f) full := by
  cases x with
  | error e => exact ⟨List.nil_prefix, (fun h => by cases h)⟩
  | ok a => exact h a rfl

theorem Yields.forEach {α β : Type} {f : α → Gen β} {full : α → List β} : ∀ {l : List α}, (∀ x ∈ l, Yields (f x) (full x)) →
    Yields (Scripts.forEach f l) (l.flatMap full)
  | [], _ => ⟨List.prefix_refl _, fun _ => rfl⟩
  | x :: l, h => by
    rw [Scripts.forEach, List.flatMap_cons]
    exact .append (h x (by simp)) fun _ => .forEach fun y hy => h y (by simp [hy])

theorem Yields.forGen {α β : Type} {f : α → Gen β} {full : α → List β} {g : Gen α} (h : ∀ x ∈ g.items, Yields (f x) (full x)) :
    Yields (Scripts.forGen f g) (g.items.flatMap full) := by
  have h1 : Yields (Scripts.forEach f g.items) (g.items.flatMap full) := .forEach h
  have := h1.append (b := ⟨[], g.err⟩) (B := []) fun _ => ⟨List.prefix_refl _, fun _ => rfl⟩
  rwa [List.append_nil] at this

theorem Yields.done {β : Type} : Yields (Gen.done : Gen β) [] := ⟨List.prefix_refl _, fun _ => rfl⟩

theorem Yields.fail {β : Type} {e : Exc} {full : List β} : Yields (Gen.fail e : Gen β) full := ⟨List.nil_prefix, (fun h => by cases h)⟩

/-- A generator that yields nothing when there is an exception. -/
def Single {β : Type} (g : Gen β) : Prop := g.err ≠ none → g.items = []

theorem Single.andThen {α β : Type} {x : Except Exc α} {f : α → Gen β} (h : ∀ a, Single (f a)) : Single (Scripts.andThen x f) := by
  cases x with
  | error e => exact fun _ => rfl
  | ok a => exact h a

theorem Single.one {β : Type} {x : β} : Single (Gen.cons x .done) := fun h => absurd rfl h

theorem Single.none {β : Type} : Single (Gen.done : Gen β) := fun _ => rfl

end Verif.Scripts
