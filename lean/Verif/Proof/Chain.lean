/-
Following a cluster chain, for any table.
-/
import Verif.Spec.Chain
import Verif.Basic.Pigeonhole
namespace Verif
open Spec

/-- The loop of both `FAT.chain`s. -/
def follow (entry : Nat → Except Exc Nat) (isEnd : Nat → Prop) [DecidablePred isEnd] (bad : Nat) :
    Nat → List Nat → Nat → Option (Except Exc (List (Option Nat)))
  | 0, _, _ => none
  | fuel + 1, chain, curr =>
    match entry curr with
    | .error e => some (.error e)
    | .ok next =>
      if next ∈ chain ∨ isEnd next then some (.ok (chain.map some))
      else if next = bad then some (.ok (chain.map some ++ [none]))
      else follow entry isEnd bad fuel (chain ++ [next]) next

variable {entry : Nat → Except Exc Nat} {isEnd : Nat → Prop} {bad first : Nat}

theorem follow_mono [DecidablePred isEnd] {fuel : Nat} {chain : List Nat} {curr : Nat} {r : Except Exc (List (Option Nat))}
    (h : follow entry isEnd bad fuel chain curr = some r) {fuel' : Nat} (hle : fuel ≤ fuel') :
    follow entry isEnd bad fuel' chain curr = some r := by
  induction fuel generalizing chain curr fuel' with
  | zero => cases h
  | succ n ih =>
    obtain ⟨m, rfl⟩ : ∃ m, fuel' = m + 1 := ⟨fuel' - 1, by omega⟩
    rw [follow] at h ⊢
    split
    · rename_i e he; rw [he] at h; exact h
    · rename_i next he; rw [he] at h; dsimp only at h
      split
      · rename_i hc; rw [if_pos hc] at h; exact h
      · rename_i hc; rw [if_neg hc] at h
        split
        · rename_i hb; rw [if_pos hb] at h; exact h
        · rename_i hb; rw [if_neg hb] at h
          exact ih h (by omega)

theorem follow_some [DecidablePred isEnd] {limit : Nat} (hlimit : ∀ c d, entry c = .ok d → c ≤ limit) {fuel : Nat} {chain : List Nat} {curr : Nat}
    (hnd : chain.Nodup) (hle : ∀ c ∈ chain, c ≤ limit ∨ c = curr) (hcurr : curr ∈ chain) (hfuel : limit + 3 ≤ fuel + chain.length) :
    ∃ r, follow entry isEnd bad fuel chain curr = some r := by
  induction fuel generalizing chain curr with
  | zero =>
    exfalso
    have h1 : (chain.erase curr).length ≤ limit + 1 := by
      apply nodup_bounded_length (limit + 1) _ (hnd.erase _)
      intro x hx
      have := (List.Nodup.mem_erase_iff hnd).mp hx
      rcases hle x this.2 with h | h
      · omega
      · exact absurd h this.1
    rw [List.length_erase_of_mem hcurr] at h1
    omega
  | succ n ih =>
    rw [follow]
    cases he : entry curr with
    | error e => exact ⟨_, rfl⟩
    | ok next =>
      dsimp only
      split
      · exact ⟨_, rfl⟩
      · rename_i hc
        split
        · exact ⟨_, rfl⟩
        · apply ih
          · rw [List.nodup_append]
            refine ⟨hnd, by simp, ?_⟩
            intro a ha b hb
            simp only [List.mem_singleton] at hb
            subst hb
            intro hab; subst hab
            exact hc (Or.inl ha)
          · intro c hcm
            simp only [List.mem_append, List.mem_singleton] at hcm
            rcases hcm with hcm | hcm
            · rcases hle c hcm with h | h
              · exact Or.inl h
              · subst h; exact Or.inl (hlimit _ _ he)
            · exact Or.inr hcm
          · simp
          · simp only [List.length_append, List.length_singleton]; omega

theorem path_snoc {chain : List Nat} {curr next : Nat} (hp : ClusterPath entry isEnd bad first chain) (hl : chain.getLast? = some curr)
    (he : entry curr = .ok next) (hn : next ∉ chain) (hend : ¬ isEnd next) (hb : next ≠ bad) :
    ClusterPath entry isEnd bad first (chain ++ [next]) := by
  have hne : chain ≠ [] := by intro h; rw [h] at hl; cases hl
  refine ⟨?_, ?_, ?_⟩
  · rw [List.head?_append, hp.starts]; rfl
  · rw [List.nodup_append]
    refine ⟨hp.noRepeat, by simp, ?_⟩
    intro a ha b hb'
    simp only [List.mem_singleton] at hb'
    subst hb'
    intro hab; subst hab
    exact hn ha
  · intro i c d hc hd
    have hi : i + 1 < (chain ++ [next]).length := by
      rcases List.getElem?_eq_some_iff.mp hd with ⟨h, _⟩; exact h
    simp only [List.length_append, List.length_singleton] at hi
    rw [List.getElem?_append_left (by omega)] at hc
    by_cases h2 : i + 1 < chain.length
    · rw [List.getElem?_append_left h2] at hd
      exact hp.follows i c d hc hd
    · have hi' : i = chain.length - 1 := by omega
      rw [List.getElem?_append_right (by omega)] at hd
      have : i + 1 - chain.length = 0 := by omega
      rw [this] at hd
      simp only [List.getElem?_cons_zero, Option.some.injEq] at hd
      subst hd
      rw [List.getLast?_eq_getElem?, ← hi', hc] at hl
      cases hl
      exact ⟨he, hend, hb⟩

theorem follow_sound [DecidablePred isEnd] {fuel : Nat} {chain : List Nat} {curr : Nat} {r : Except Exc (List (Option Nat))} (hfirst : first ≠ bad)
    (hp : ClusterPath entry isEnd bad first chain) (hl : chain.getLast? = some curr) (hbm : bad ∉ chain) (hbe : ¬ isEnd bad)
    (h : follow entry isEnd bad fuel chain curr = some r) :
    (∀ l, r = .ok l → IsChain entry isEnd bad first l) ∧ (∀ e, r = .error e → IsBroken entry isEnd bad first e) := by
  induction fuel generalizing chain curr with
  | zero => cases h
  | succ n ih =>
    rw [follow] at h
    cases he : entry curr with
    | error e =>
      rw [he] at h
      cases h
      refine ⟨(fun _ h => by cases h), fun _ h => ?_⟩
      cases h
      exact ⟨chain, curr, hp, hl, he⟩
    | ok next =>
      rw [he] at h
      dsimp only at h
      split at h
      · rename_i hc
        cases h
        refine ⟨fun _ h => ?_, fun _ h => by cases h⟩
        cases h
        refine ⟨chain, curr, next, hp, hl, he, Or.inl ⟨hc, ?_, rfl⟩⟩
        rintro rfl
        rcases hc with hc | hc
        · exact hbm hc
        · exact hbe hc
      · rename_i hc
        split at h
        · rename_i hb
          cases h
          refine ⟨fun _ h => ?_, fun _ h => by cases h⟩
          cases h
          exact ⟨chain, curr, next, hp, hl, he, Or.inr ⟨hb, rfl⟩⟩
        · rename_i hb
          refine ih (path_snoc hp hl he (fun h => hc (Or.inl h)) (fun h => hc (Or.inr h)) hb) (by simp) ?_ h
          simp only [List.mem_append, List.mem_singleton, not_or]
          exact ⟨hbm, fun h => hb h.symm⟩

/-- Two paths from the same cluster: one is the beginning of the other. -/
theorem path_agree {p q : List Nat} (hp : ClusterPath entry isEnd bad first p) (hq : ClusterPath entry isEnd bad first q) (i : Nat)
    (hi : i < p.length) (hi' : i < q.length) : p[i]? = q[i]? := by
  induction i with
  | zero => rw [← List.head?_eq_getElem?, ← List.head?_eq_getElem?, hp.starts, hq.starts]
  | succ k ih =>
    have h := ih (by omega) (by omega)
    have e1 : p[k]? = some p[k] := List.getElem?_eq_getElem (by omega)
    have e2 : p[k+1]? = some p[k+1] := List.getElem?_eq_getElem hi
    have e3 : q[k+1]? = some q[k+1] := List.getElem?_eq_getElem hi'
    have f1 := (hp.follows k _ _ e1 e2).1
    have f2 := (hq.follows k _ _ (h ▸ e1) e3).1
    rw [f1] at f2
    rw [e2, e3]
    exact congrArg some (Except.ok.inj f2)

/-- A path whose last cluster has no valid continuation is not shorter than any other. -/
theorem path_maximal {p q : List Nat} {last : Nat} (hp : ClusterPath entry isEnd bad first p) (hq : ClusterPath entry isEnd bad first q)
    (hl : p.getLast? = some last) (hstop : ∀ d, entry last = .ok d → d ∈ p ∨ isEnd d ∨ d = bad) : q.length ≤ p.length := by
  apply Nat.le_of_not_lt
  intro hlt
  have hne : p.length ≠ 0 := by
    intro h; rw [List.length_eq_zero_iff] at h; rw [h] at hl; cases hl
  have hlast : p[p.length - 1]? = some last := by rw [← List.getLast?_eq_getElem?]; exact hl
  have e1 : q[p.length - 1]? = some last := by rw [← path_agree hp hq _ (by omega) (by omega)]; exact hlast
  have e2 : q[p.length - 1 + 1]? = some q[p.length - 1 + 1] := List.getElem?_eq_getElem (by omega)
  have f := hq.follows _ _ _ e1 e2
  rcases hstop _ f.1 with h | h | h
  · obtain ⟨j, hj, hjeq⟩ := List.getElem_of_mem h
    have e3 : q[j]? = some q[p.length - 1 + 1] := by
      rw [← path_agree hp hq j hj (by omega), List.getElem?_eq_getElem hj, hjeq]
    have : q[j] = q[p.length - 1 + 1] := by
      rw [List.getElem?_eq_getElem (by omega)] at e3; exact Option.some.inj e3
    have := (List.getElem_inj hq.noRepeat).mp this
    omega
  · exact f.2.1 h
  · exact f.2.2 h

theorem path_unique {p q : List Nat} {a b : Nat} (hp : ClusterPath entry isEnd bad first p) (hq : ClusterPath entry isEnd bad first q)
    (ha : p.getLast? = some a) (hb : q.getLast? = some b) (hsa : ∀ d, entry a = .ok d → d ∈ p ∨ isEnd d ∨ d = bad)
    (hsb : ∀ d, entry b = .ok d → d ∈ q ∨ isEnd d ∨ d = bad) : p = q := by
  have h1 := path_maximal hp hq ha hsa
  have h2 := path_maximal hq hp hb hsb
  apply List.ext_getElem?
  intro i
  by_cases hi : i < p.length
  · exact path_agree hp hq i hi (by omega)
  · rw [List.getElem?_eq_none (by omega), List.getElem?_eq_none (by omega)]

/-- There is only one chain from a cluster. -/
theorem isChain_unique {l m : List (Option Nat)} (hl : IsChain entry isEnd bad first l) (hm : IsChain entry isEnd bad first m) : l = m := by
  obtain ⟨p, a, x, hp, ha, hx, hpc⟩ := hl
  obtain ⟨q, b, y, hq, hb, hy, hqc⟩ := hm
  have hpq : p = q := by
    refine path_unique hp hq ha hb ?_ ?_
    · intro d hd; rw [hx] at hd; cases hd
      rcases hpc with ⟨h | h, _⟩ | ⟨h, _⟩
      · exact Or.inl h
      · exact Or.inr (Or.inl h)
      · exact Or.inr (Or.inr h)
    · intro d hd; rw [hy] at hd; cases hd
      rcases hqc with ⟨h | h, _⟩ | ⟨h, _⟩
      · exact Or.inl h
      · exact Or.inr (Or.inl h)
      · exact Or.inr (Or.inr h)
  subst hpq
  rw [ha] at hb; cases hb
  rw [hx] at hy; cases hy
  rcases hpc with ⟨_, hn, h⟩ | ⟨hn, h⟩ <;> rcases hqc with ⟨_, hn', h'⟩ | ⟨hn', h'⟩
  · rw [h, h']
  · exact absurd hn' hn
  · exact absurd hn hn'
  · rw [h, h']

/-- A chain is either complete or broken. -/
theorem isChain_not_broken {l : List (Option Nat)} {e : Exc} (hl : IsChain entry isEnd bad first l) (hb : IsBroken entry isEnd bad first e) : False := by
  obtain ⟨p, a, x, hp, ha, hx, hpc⟩ := hl
  obtain ⟨q, b, hq, hb, hy⟩ := hb
  have hpq : p = q := by
    refine path_unique hp hq ha hb ?_ ?_
    · intro d hd; rw [hx] at hd; cases hd
      rcases hpc with ⟨h | h, _⟩ | ⟨h, _⟩
      · exact Or.inl h
      · exact Or.inr (Or.inl h)
      · exact Or.inr (Or.inr h)
    · intro d hd; rw [hy] at hd; cases hd
  subst hpq
  rw [ha] at hb; cases hb
  rw [hx] at hy; cases hy

theorem isBroken_unique {e e' : Exc} (hl : IsBroken entry isEnd bad first e) (hm : IsBroken entry isEnd bad first e') : e = e' := by
  obtain ⟨p, a, hp, ha, hx⟩ := hl
  obtain ⟨q, b, hq, hb, hy⟩ := hm
  have hpq : p = q := by
    refine path_unique hp hq ha hb ?_ ?_
    · intro d hd; rw [hx] at hd; cases hd
    · intro d hd; rw [hy] at hd; cases hd
  subst hpq
  rw [ha] at hb; cases hb
  rw [hx] at hy; cases hy; rfl

theorem path_single : ClusterPath entry isEnd bad first [first] := by
  refine ⟨rfl, by simp, ?_⟩
  intro i c d _ hd
  simp at hd

/-- What the loop computes, and that it needs at most `limit + 2` rounds. -/
theorem follow_spec [DecidablePred isEnd] {limit : Nat} (hlimit : ∀ c d, entry c = .ok d → c ≤ limit) (hfirst : first ≠ bad) (hbe : ¬ isEnd bad) :
    ∃ r, (∀ fuel, limit + 2 ≤ fuel → follow entry isEnd bad fuel [first] first = some r) ∧
      (∀ l, r = .ok l ↔ IsChain entry isEnd bad first l) ∧ (∀ e, r = .error e ↔ IsBroken entry isEnd bad first e) := by
  obtain ⟨r, hr⟩ := follow_some (isEnd := isEnd) (bad := bad) hlimit (fuel := limit + 2) (chain := [first]) (curr := first) (by simp) (by simp) (by simp) (by simp)
  have hs := follow_sound hfirst path_single (by simp) (by simpa using fun h => hfirst h.symm) hbe hr
  refine ⟨r, fun fuel hf => follow_mono hr hf, ?_, ?_⟩
  · intro l
    constructor
    · exact hs.1 l
    · intro hl
      cases r with
      | ok m => rw [isChain_unique hl (hs.1 m rfl)]
      | error e => exact (isChain_not_broken hl (hs.2 e rfl)).elim
  · intro e
    constructor
    · exact hs.2 e
    · intro he
      cases r with
      | ok m => exact (isChain_not_broken (hs.1 m rfl) he).elim
      | error e' => rw [isBroken_unique he (hs.2 e' rfl)]

end Verif
