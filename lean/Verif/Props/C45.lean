/-
C45: loading the differential area of a shadow copy.
-/
import Verif.Proof.ShadowCopy
namespace Verif.Props
open Verif.ShadowCopy Verif.Spec.Shadow

/-! ### The dictionary -/

theorem get_del (c : Context) (k o : Nat) : (c.del k).get o = if o = k then none else c.get o := by
  unfold Context.get Context.del
  rw [List.find?_filter]
  split
  · rename_i h
    subst h
    rw [List.find?_eq_none.mpr]
    · rfl
    · intro x _; simp
  · rename_i h
    congr 2
    funext x
    by_cases hx : x.1 = o
    · simp [hx, h]
    · simp [hx]

theorem get_set (c : Context) (k v o : Nat) : (c.set k v).get o = if o = k then some v else c.get o := by
  unfold Context.set
  by_cases h : o = k
  · subst h
    rw [if_pos rfl]
    unfold Context.get
    rw [List.find?_cons_of_pos (by simp)]
    rfl
  · rw [if_neg h]
    have := get_del c k o
    rw [if_neg h] at this
    rw [← this]
    unfold Context.get
    rw [List.find?_cons_of_neg (by simpa using fun hh => h hh.symm)]

/-! ### Removing -/

/-- What is removed. -/
def dropped (o : Nat) (x : Entry) : Bool := decide (x.flags &&& (1 ||| 2) = 0 ∧ x.original = o)

theorem removeRegular_eq (o : Nat) (copy items : List Entry) (h : ∀ x, dropped o x = true → items.count x ≤ copy.count x) :
    removeRegular o copy items = items.filter (fun x => !dropped o x) := by
  induction copy generalizing items with
  | nil =>
    unfold removeRegular
    symm
    rw [List.filter_eq_self]
    intro x hx
    cases hd : dropped o x with
    | false => rfl
    | true =>
      have := h x hd
      rw [List.count_nil, Nat.le_zero_eq, List.count_eq_zero] at this
      exact absurd hx this
  | cons y ys ih =>
    have keep : dropped o y = false → ∀ x, dropped o x = true → items.count x ≤ ys.count x := by
      intro hy x hx
      have := h x hx
      rw [List.count_cons, if_neg] at this
      · exact this
      · intro he
        rw [beq_iff_eq] at he
        subst he
        rw [hx] at hy
        cases hy
    unfold removeRegular
    split
    · rename_i h1
      exact ih _ (keep (by simpa [dropped] using fun hc => absurd hc h1))
    · rename_i h1
      have h1 := Classical.not_not.mp h1
      split
      · rename_i h2
        have hy : dropped o y = true := by simpa [dropped] using ⟨h1, h2⟩
        rw [ih]
        · by_cases hm : y ∈ items
          · obtain ⟨a, b, -, h3, h4⟩ := List.exists_erase_eq hm
            rw [h4, h3, List.filter_append, List.filter_append, List.filter_cons_of_neg (by rw [hy]; decide)]
          · rw [List.erase_of_not_mem hm]
        · intro x hx
          have := h x hx
          rw [List.count_cons] at this
          rw [List.count_erase]
          split at this
          · rename_i he
            rw [if_pos (by rw [beq_iff_eq] at he ⊢; exact he)]
            omega
          · omega
      · rename_i h2
        exact ih _ (keep (by simpa [dropped] using fun _ => h2))

/-! ### Survivors -/

theorem survivors_snoc (l : List Entry) (g : Entry) : survivors (l ++ [g]) =
    (survivors l).filter (fun f => decide (¬ (¬ IsForwarder f ∧ ¬ IsOverlay f ∧ IsSelfForwarder g ∧ g.original = f.original))) ++ [g] := by
  induction l with
  | nil => simp [survivors]
  | cons f rest ih =>
    show survivors (f :: (rest ++ [g])) = _
    unfold survivors
    by_cases h1 : ¬ IsForwarder f ∧ ¬ IsOverlay f ∧ ∃ x ∈ rest, IsSelfForwarder x ∧ x.original = f.original
    · have h1' : ∃ x ∈ rest ++ [g], IsSelfForwarder x ∧ x.original = f.original := by
        obtain ⟨-, -, x, hx, h2⟩ := h1
        exact ⟨x, List.mem_append_left _ hx, h2⟩
      rw [if_pos h1, if_pos ⟨h1.1, h1.2.1, h1'⟩, ih]
    · rw [if_neg h1]
      by_cases h2 : ¬ IsForwarder f ∧ ¬ IsOverlay f ∧ IsSelfForwarder g ∧ g.original = f.original
      · rw [if_pos ⟨h2.1, h2.2.1, g, by simp, h2.2.2⟩, ih,
          List.filter_cons_of_neg (by rw [decide_eq_true_iff]; exact fun hc => hc h2)]
      · rw [if_neg, ih, List.filter_cons_of_pos (by rw [decide_eq_true_iff]; exact h2)]
        · rfl
        · rintro ⟨h3, h4, x, hx, h5⟩
          rcases List.mem_append.mp hx with hx | hx
          · exact h1 ⟨h3, h4, x, hx, h5⟩
          · rw [List.mem_singleton] at hx
            subst hx
            exact h2 ⟨h3, h4, h5⟩

/-! ### The invariant -/

/-- Pending forwarders depend only on the earlier entries. -/
theorem pending_snoc (rec fin : List Entry) (e f : Entry) (hl : fin.length = rec.length) (i o t : Nat) (hi : i ≤ rec.length) :
    Pending (rec ++ [e]) (fin ++ [f]) i o t ↔ Pending rec fin i o t := by
  unfold Pending
  constructor
  · rintro ⟨j, g, h1, h2, h3, h4, h5, h6, h7⟩
    rw [List.getElem?_append_left (by omega)] at h2
    refine ⟨j, g, h1, h2, h3, h4, h5, h6, fun k hk1 hk2 e' f' he hf => h7 k hk1 hk2 e' f' ?_ ?_⟩
    · rw [List.getElem?_append_left (by omega)]; exact he
    · rw [List.getElem?_append_left (by omega)]; exact hf
  · rintro ⟨j, g, h1, h2, h3, h4, h5, h6, h7⟩
    refine ⟨j, g, h1, ?_, h3, h4, h5, h6, fun k hk1 hk2 e' f' he hf => h7 k hk1 hk2 e' f' ?_ ?_⟩
    · rw [List.getElem?_append_left (by omega)]; exact h2
    · rw [List.getElem?_append_left (by omega)] at he; exact he
    · rw [List.getElem?_append_left (by omega)] at hf; exact hf

/-- What is forwarded after one more entry. -/
theorem pending_step (rec fin : List Entry) (e f : Entry) (hl : fin.length = rec.length) (o t : Nat) :
    Pending (rec ++ [e]) (fin ++ [f]) (rec.length + 1) o t ↔
    (IsForwarder f ∧ f.inStore = o ∧ f.original = t ∧ t ≠ o) ∨
    (Pending rec fin rec.length o t ∧ ¬ (¬ IsOverlay e ∧ e.original = o) ∧ ¬ (IsForwarder f ∧ f.inStore = o ∧ f.original ≠ o)) := by
  constructor
  · rintro ⟨j, g, h1, h2, h3, h4, h5, h6, h7⟩
    by_cases hj : j = rec.length
    · subst hj
      rw [← hl, List.getElem?_concat_length] at h2
      cases h2
      exact .inl ⟨h3, h4, h5, h6⟩
    · right
      refine ⟨?_, h7 rec.length (by omega) (by omega) e f List.getElem?_concat_length (by rw [← hl]; exact List.getElem?_concat_length)⟩
      rw [← pending_snoc rec fin e f hl rec.length o t (Nat.le_refl _)]
      exact ⟨j, g, by omega, h2, h3, h4, h5, h6, fun k hk1 hk2 => h7 k hk1 (by omega)⟩
  · rintro (⟨h1, h2, h3, h4⟩ | ⟨h1, h2, h3⟩)
    · exact ⟨rec.length, f, by omega, by rw [← hl]; exact List.getElem?_concat_length, h1, h2, h3, h4, fun k hk1 hk2 => by omega⟩
    · rw [← pending_snoc rec fin e f hl rec.length o t (Nat.le_refl _)] at h1
      obtain ⟨j, g, a1, a2, a3, a4, a5, a6, a7⟩ := h1
      refine ⟨j, g, by omega, a2, a3, a4, a5, a6, fun k hk1 hk2 e' f' he hf => ?_⟩
      by_cases hk : k = rec.length
      · subst hk
        rw [List.getElem?_concat_length] at he
        rw [← hl, List.getElem?_concat_length] at hf
        cases he
        cases hf
        exact ⟨h2, h3⟩
      · exact a7 k hk1 (by omega) e' f' he hf

/-- The state of the loop. -/
structure Inv (rec : List Entry) (st : List Entry × Context) (fin : List Entry) : Prop where
  retargeted : Retargeted rec fin
  context : ∀ o t, st.2.get o = some t ↔ Pending rec fin rec.length o t
  items : st.1 = survivors fin

theorem retargeted_snoc {rec fin : List Entry} (h : Retargeted rec fin) (e f : Entry)
    (h1 : f.inStore = e.inStore ∧ f.dataBlock = e.dataBlock ∧ f.flags = e.flags ∧ f.bitmap = e.bitmap)
    (h2 : ∀ t, ¬ IsOverlay e → Pending rec fin rec.length e.original t → f.original = t)
    (h3 : (IsOverlay e ∨ ∀ t, ¬ Pending rec fin rec.length e.original t) → f.original = e.original) :
    Retargeted (rec ++ [e]) (fin ++ [f]) := by
  have key : ∀ {i e' f'}, (rec ++ [e])[i]? = some e' → (fin ++ [f])[i]? = some f' →
      (i < rec.length ∧ rec[i]? = some e' ∧ fin[i]? = some f') ∨ (i = rec.length ∧ e' = e ∧ f' = f) := by
    intro i e' f' he hf
    by_cases hi : i < rec.length
    · rw [List.getElem?_append_left hi] at he
      rw [List.getElem?_append_left (by rw [h.length]; exact hi)] at hf
      exact .inl ⟨hi, he, hf⟩
    · have hlt := (List.getElem?_eq_some_iff.mp he).1
      rw [List.length_append, List.length_singleton] at hlt
      have hi : i = rec.length := by omega
      subst hi
      rw [List.getElem?_concat_length] at he
      rw [← h.length, List.getElem?_concat_length] at hf
      cases he
      cases hf
      exact .inr ⟨rfl, rfl, rfl⟩
  refine ⟨by simp [h.length], fun i e' f' he hf => ?_, fun i e' f' t he hf ho hp => ?_, fun i e' f' he hf hk => ?_⟩
  · rcases key he hf with ⟨hi, a, b⟩ | ⟨-, rfl, rfl⟩
    · exact h.others i e' f' a b
    · exact h1
  · rcases key he hf with ⟨hi, a, b⟩ | ⟨hi, rfl, rfl⟩
    · rw [pending_snoc rec fin e f h.length i _ t (Nat.le_of_lt hi)] at hp
      exact h.moved i e' f' t a b ho hp
    · subst hi
      rw [pending_snoc rec fin e' f' h.length _ _ t (Nat.le_refl _)] at hp
      exact h2 t ho hp
  · rcases key he hf with ⟨hi, a, b⟩ | ⟨hi, rfl, rfl⟩
    · refine h.kept i e' f' a b (hk.imp_right fun hn t hp => hn t ?_)
      rw [pending_snoc rec fin e f h.length i _ t (Nat.le_of_lt hi)]
      exact hp
    · subst hi
      refine h3 (hk.imp_right fun hn t hp => hn t ?_)
      rw [pending_snoc rec fin e' f' h.length _ _ t (Nat.le_refl _)]
      exact hp

theorem inv_step {rec fin : List Entry} {st : List Entry × Context} (h : Inv rec st fin) (e : Entry) :
    Inv (rec ++ [e]) (loadStep st e) (fin ++ [(retarget st.2 e).1]) := by
  have hl := h.retargeted.length
  -- the retargeted entry and the dictionary after it
  have hr : ∃ f ctx, retarget st.2 e = (f, ctx) ∧
      (f.inStore = e.inStore ∧ f.dataBlock = e.dataBlock ∧ f.flags = e.flags ∧ f.bitmap = e.bitmap) ∧
      (∀ t, ¬ IsOverlay e → st.2.get e.original = some t → f.original = t) ∧
      ((IsOverlay e ∨ st.2.get e.original = none) → f.original = e.original) ∧
      (∀ o, ctx.get o = if ¬ IsOverlay e ∧ e.original = o then none else st.2.get o) := by
    unfold retarget
    split
    · rename_i new hg
      split
      · rename_i hf
        rw [flag2_zero] at hf
        refine ⟨_, _, rfl, ⟨rfl, rfl, rfl, rfl⟩, fun t _ ht => by rw [hg] at ht; cases ht; rfl,
          fun hk => ?_, fun o => ?_⟩
        · rcases hk with hk | hk
          · exact absurd hk hf
          · rw [hg] at hk; cases hk
        · rw [get_del]
          by_cases ho : o = e.original
          · rw [if_pos ho, if_pos ⟨hf, ho.symm⟩]
          · rw [if_neg ho, if_neg (fun hc => ho hc.2.symm)]
      · rename_i hf
        rw [flag2_zero] at hf
        refine ⟨_, _, rfl, ⟨rfl, rfl, rfl, rfl⟩, fun t ht => absurd ht hf, fun _ => rfl, fun o => ?_⟩
        rw [if_neg (fun hc => hf hc.1)]
    · rename_i hg
      refine ⟨_, _, rfl, ⟨rfl, rfl, rfl, rfl⟩, (fun t _ ht => by rw [hg] at ht; cases ht), fun _ => rfl, fun o => ?_⟩
      split
      · rename_i hc; rw [← hc.2]; exact hg
      · rfl
  obtain ⟨f, ctx, hf, h1, h2, h3, h4⟩ := hr
  rw [hf]
  have hret : Retargeted (rec ++ [e]) (fin ++ [f]) := by
    refine retargeted_snoc h.retargeted e f h1 (fun t ho hp => h2 t ho ((h.context _ _).mpr hp)) (fun hk => h3 (hk.imp_right fun hn => ?_))
    cases hg : st.2.get e.original with
    | none => rfl
    | some t => exact absurd ((h.context _ _).mp hg) (hn t)
  have hpend : ∀ ctx' : Context, (∀ o, ctx'.get o = if IsForwarder f ∧ f.inStore = o ∧ f.original ≠ o then some f.original
        else ctx.get o) → ∀ o t, ctx'.get o = some t ↔ Pending (rec ++ [e]) (fin ++ [f]) (rec ++ [e]).length o t := by
    intro ctx' hc o t
    rw [List.length_append, List.length_singleton, pending_step rec fin e f hl, hc, h4, ← h.context]
    by_cases hA : IsForwarder f ∧ f.inStore = o ∧ f.original ≠ o
    · rw [if_pos hA]
      constructor
      · intro ht; cases ht; exact .inl ⟨hA.1, hA.2.1, rfl, hA.2.2⟩
      · rintro (ht | ht)
        · rw [ht.2.2.1]
        · exact absurd hA ht.2.2
    · rw [if_neg hA]
      by_cases hB : ¬ IsOverlay e ∧ e.original = o
      · rw [if_pos hB]
        constructor
        · intro ht; cases ht
        · rintro (ht | ht)
          · exact absurd ⟨ht.1, ht.2.1, by rw [ht.2.2.1]; exact ht.2.2.2⟩ hA
          · exact absurd hB ht.2.1
      · rw [if_neg hB]
        constructor
        · intro ht; exact .inr ⟨ht, hB, hA⟩
        · rintro (ht | ht)
          · exact absurd ⟨ht.1, ht.2.1, by rw [ht.2.2.1]; exact ht.2.2.2⟩ hA
          · exact ht.1
  have hsurv : ¬ IsSelfForwarder f → survivors (fin ++ [f]) = survivors fin ++ [f] := by
    intro hs
    rw [survivors_snoc, List.filter_eq_self.mpr]
    intro x _
    rw [decide_eq_true_iff]
    exact fun hc => hs hc.2.2.1
  unfold loadStep
  rw [hf]
  dsimp only
  split
  · rename_i hfw
    rw [flag1] at hfw
    split
    · rename_i hoi
      refine ⟨hret, hpend _ fun o => ?_, ?_⟩
      · rw [get_set]
        by_cases ho : o = f.inStore
        · subst ho
          rw [if_pos rfl, if_pos ⟨hfw, rfl, hoi⟩]
        · rw [if_neg ho, if_neg (fun hc => ho hc.2.1.symm)]
      · rw [hsurv (fun hc => hoi hc.2), h.items]
    · rename_i hoi
      have hoi := Classical.not_not.mp hoi
      refine ⟨hret, hpend _ fun o => ?_, ?_⟩
      · rw [if_neg]
        rintro ⟨-, h5, h6⟩
        exact h6 (hoi.trans h5)
      · rw [survivors_snoc, removeRegular_eq _ _ _ (fun x _ => Nat.le_refl _), h.items]
        dsimp only
        congr 1
        apply List.filter_congr
        intro x _
        unfold dropped
        rw [← decide_not, decide_eq_decide]
        apply not_congr
        have h3 := flag3 x
        constructor
        · rintro ⟨a, b⟩
          have : ¬ (IsForwarder x ∨ IsOverlay x) := fun hc => (h3.mpr hc) a
          exact ⟨fun hc => this (.inl hc), fun hc => this (.inr hc), ⟨hfw, hoi⟩, b.symm⟩
        · rintro ⟨a, b, -, c⟩
          refine ⟨Classical.byContradiction fun hc => ?_, c.symm⟩
          rcases h3.mp hc with h | h
          · exact a h
          · exact b h
  · rename_i hfw
    rw [flag1] at hfw
    refine ⟨hret, hpend _ fun o => ?_, ?_⟩
    · rw [if_neg (fun hc => hfw hc.1)]
    · rw [hsurv (fun hc => hfw hc.1), h.items]

theorem inv_fold (es rec : List Entry) (st : List Entry × Context) (fin : List Entry) (h : Inv rec st fin) :
    ∃ fin', Inv (rec ++ es) (es.foldl loadStep st) fin' := by
  induction es generalizing rec st fin with
  | nil => exact ⟨fin, by rw [List.append_nil]; exact h⟩
  | cons e rest ih =>
    obtain ⟨fin', h'⟩ := ih _ _ _ (inv_step h e)
    refine ⟨fin', ?_⟩
    rw [List.append_assoc] at h'
    exact h'

/-- C45: the loaded entries are the recorded entries with the offsets the earlier forwarders demand, without
the regular entries that a later self-forwarder replaces; they are sorted by their offsets, and the entries
of one offset are in the recorded order. -/
theorem C45_load (recorded : List Entry) : ∃ final, Retargeted recorded final ∧
    (loadEntries recorded).Pairwise (fun a b => a.original ≤ b.original) ∧
    ∀ o, (loadEntries recorded).filter (fun e => decide (e.original = o)) =
      (survivors final).filter (fun e => decide (e.original = o)) := by
  obtain ⟨fin, h⟩ := inv_fold recorded [] ([], []) [] ⟨⟨rfl, by simp, by simp, by simp⟩, by
    intro o t
    constructor
    · intro h; cases h
    · rintro ⟨j, f, h, -⟩; exact absurd h (by simp), rfl⟩
  rw [List.nil_append] at h
  refine ⟨fin, h.retargeted, ?_, fun o => ?_⟩
  · refine (sortBy_sorted _ _).imp ?_
    intro a b hab
    omega
  · have := filter_sortBy (fun e : Entry => (e.original : Int)) (o : Int) (recorded.foldl loadStep ([], [])).1
    simp only [Int.natCast_inj] at this
    unfold loadEntries
    rw [this, h.items]

/-- The final offsets are determined by the record. -/
theorem C45_unique (recorded f1 f2 : List Entry) (h1 : Retargeted recorded f1) (h2 : Retargeted recorded f2) : f1 = f2 := by
  have key : ∀ n : Nat, ∀ i : Nat, i < n → f1[i]? = f2[i]? := by
    intro n
    induction n with
    | zero => intro i hi; omega
    | succ n ih =>
      intro i hi
      by_cases hn : i < n
      · exact ih i hn
      have hi : i = n := by omega
      subst hi
      by_cases hlt : i < recorded.length
      · have he : recorded[i]? = some recorded[i] := List.getElem?_eq_getElem hlt
        have a1 : f1[i]? = some (f1[i]'(by rw [h1.length]; exact hlt)) := List.getElem?_eq_getElem _
        have a2 : f2[i]? = some (f2[i]'(by rw [h2.length]; exact hlt)) := List.getElem?_eq_getElem _
        rw [a1, a2]
        generalize f1[i]'(by rw [h1.length]; exact hlt) = x1 at a1
        generalize f2[i]'(by rw [h2.length]; exact hlt) = x2 at a2
        generalize recorded[i] = e at he
        have hp : ∀ o t, Pending recorded f1 i o t → Pending recorded f2 i o t := by
          rintro o t ⟨j, f, b1, b2, b3, b4, b5, b6, b7⟩
          refine ⟨j, f, b1, by rw [← ih j b1]; exact b2, b3, b4, b5, b6, fun k hk1 hk2 e' f' c1 c2 => ?_⟩
          exact b7 k hk1 hk2 e' f' c1 (by rw [ih k hk2]; exact c2)
        have hp' : ∀ o t, Pending recorded f2 i o t → Pending recorded f1 i o t := by
          rintro o t ⟨j, f, b1, b2, b3, b4, b5, b6, b7⟩
          refine ⟨j, f, b1, by rw [ih j b1]; exact b2, b3, b4, b5, b6, fun k hk1 hk2 e' f' c1 c2 => ?_⟩
          exact b7 k hk1 hk2 e' f' c1 (by rw [← ih k hk2]; exact c2)
        have horig : x1.original = x2.original := by
          by_cases hov : IsOverlay e
          · rw [h1.kept i e x1 he a1 (.inl hov), h2.kept i e x2 he a2 (.inl hov)]
          · by_cases ht : ∃ t, Pending recorded f1 i e.original t
            · obtain ⟨t, ht⟩ := ht
              rw [h1.moved i e x1 t he a1 hov ht, h2.moved i e x2 t he a2 hov (hp _ _ ht)]
            · rw [h1.kept i e x1 he a1 (.inr fun t hc => ht ⟨t, hc⟩),
                h2.kept i e x2 he a2 (.inr fun t hc => ht ⟨t, hp' _ _ hc⟩)]
        obtain ⟨c1, c2, c3, c4⟩ := h1.others i e x1 he a1
        obtain ⟨d1, d2, d3, d4⟩ := h2.others i e x2 he a2
        cases x1
        cases x2
        simp only at horig c1 c2 c3 c4 d1 d2 d3 d4
        subst horig
        rw [c1, c2, c3, c4, d1, d2, d3, d4]
      · rw [List.getElem?_eq_none (by rw [h1.length]; omega), List.getElem?_eq_none (by rw [h2.length]; omega)]
  exact List.ext_getElem? fun i => key (i + 1) i (by omega)

/-! ### The tables -/

theorem and_high (x : Nat) (h : x < 4294967296) : x &&& 0xFFFFFF00 = 0 ↔ x < 256 := by
  have h1 : (x &&& 0xFFFFFF00) / 2 ^ 8 = x / 2 ^ 8 := by
    rw [Nat.and_div_two_pow, show 0xFFFFFF00 / 2 ^ 8 = 2 ^ 24 - 1 from rfl, and_mask]
    omega
  have h2 : (x &&& 0xFFFFFF00) % 2 ^ 8 = 0 := by
    rw [Nat.and_mod_two_pow, show 0xFFFFFF00 % 2 ^ 8 = 0 from rfl, Nat.and_zero]
  omega

/-- The loop over a list of slots. -/
def slotLoop : List Bytes → Except Exc (List Entry)
  | [] => .ok []
  | r :: rest =>
    if ¬ ValidSlot r then .error .ShadowBlockException
    else if EndSlot r then .ok []
    else
      match slotLoop rest with
      | .error x => .error x
      | .ok l => .ok (if (slotEntry r).flags.testBit 2 = false then slotEntry r :: l else l)

theorem diffAreaLoop_eq (b : Bytes) (hb : b.length = 0x4000) (k : Nat) : ∀ i, i + k = 508 →
    diffAreaLoop b (0x80 + 32 * i) = slotLoop ((List.range' i k).map fun i => slice b (0x80 + 32 * i) (0x80 + 32 * i + 32)) := by
  induction k with
  | zero =>
    intro i hi
    rw [diffAreaLoop, if_neg (by omega)]
    rfl
  | succ k ih =>
    intro i hi
    rw [diffAreaLoop, if_pos (by omega), List.range'_succ, List.map_cons, slotLoop]
    have he : entryOf (slice b (0x80 + 32 * i) (0x80 + 32 * i + 32)) = slotEntry (slice b (0x80 + 32 * i) (0x80 + 32 * i + 32)) := rfl
    have hlt := u32_lt (slice b (0x80 + 32 * i) (0x80 + 32 * i + 32)) 24
    have hlt : (slotEntry (slice b (0x80 + 32 * i) (0x80 + 32 * i + 32))).flags < 4294967296 := hlt
    dsimp only
    rw [he, show 0x80 + 32 * i + 32 = 0x80 + 32 * (i + 1) by omega, ih (i + 1) (by omega)]
    rw [show 0x80 + 32 * (i + 1) = 0x80 + 32 * i + 32 by omega]
    generalize slice b (0x80 + 32 * i) (0x80 + 32 * i + 32) = r at hlt
    have hv : ValidSlot r ↔ ¬ ((slotEntry r).original % 0x4000 ≠ 0 ∨ (slotEntry r).dataBlock % 0x4000 ≠ 0 ∨ (slotEntry r).flags &&& 0xFFFFFF00 ≠ 0) ∧
        ¬ ((slotEntry r).flags &&& 1 > 0 ∧ (slotEntry r).flags &&& 2 > 0) := by
      rw [flag1, flag2]
      unfold ValidSlot
      rw [← and_high _ hlt]
      constructor
      · rintro ⟨a, b, c, d⟩
        exact ⟨by omega, d⟩
      · rintro ⟨a, d⟩
        refine ⟨by omega, by omega, by omega, d⟩
    by_cases h1 : (slotEntry r).original % 0x4000 ≠ 0 ∨ (slotEntry r).dataBlock % 0x4000 ≠ 0 ∨ (slotEntry r).flags &&& 0xFFFFFF00 ≠ 0
    · rw [if_pos h1, if_pos (fun hc => (hv.mp hc).1 h1)]
    rw [if_neg h1]
    by_cases h2 : (slotEntry r).flags &&& 1 > 0 ∧ (slotEntry r).flags &&& 2 > 0
    · rw [if_pos h2, if_pos (fun hc => (hv.mp hc).2 h2)]
    rw [if_neg h2, if_neg (show ¬ ¬ ValidSlot r from fun hc => hc (hv.mpr ⟨h1, h2⟩))]
    by_cases h3 : (slotEntry r).dataBlock = 0 ∧ (slotEntry r).flags = 0
    · rw [if_pos h3, if_pos (show EndSlot r from h3)]
    rw [if_neg h3, if_neg (show ¬ EndSlot r from h3)]
    have h4 : ((slotEntry r).flags &&& 4 = 0) = ((slotEntry r).flags.testBit 2 = false) := by
      have := and_two_pow_pos (slotEntry r).flags 2
      apply propext
      rw [← Bool.not_eq_true, ← this]
      show _ ↔ ¬ ((slotEntry r).flags &&& 4 > 0)
      omega
    cases slotLoop ((List.range' (i + 1) k).map fun i => slice b (0x80 + 32 * i) (0x80 + 32 * i + 32)) with
    | error x => rfl
    | ok l => simp only [h4]

theorem slotLoop_eq (l : List Bytes) : slotLoop l =
    if ∀ r ∈ (l.drop (l.takeWhile fun r => decide (ValidSlot r ∧ ¬ EndSlot r)).length).head?, ValidSlot r then
      .ok (((l.takeWhile fun r => decide (ValidSlot r ∧ ¬ EndSlot r)).map slotEntry).filter fun e => decide (e.flags.testBit 2 = false))
    else .error .ShadowBlockException := by
  induction l with
  | nil => rfl
  | cons r rest ih =>
    rw [slotLoop]
    by_cases h1 : ValidSlot r
    · rw [if_neg (fun hc => hc h1)]
      by_cases h2 : EndSlot r
      · rw [if_pos h2, List.takeWhile_cons_of_neg (p := fun r : Bytes => decide (ValidSlot r ∧ ¬ EndSlot r)) (by simp [h2]), if_pos (by
          intro x hx
          cases hx
          exact h1)]
        rfl
      · rw [if_neg h2, List.takeWhile_cons_of_pos (p := fun r : Bytes => decide (ValidSlot r ∧ ¬ EndSlot r)) (by simp [h1, h2]), ih,
          List.length_cons, List.drop_succ_cons, List.map_cons]
        by_cases h3 : ∀ r ∈ (rest.drop (rest.takeWhile fun r => decide (ValidSlot r ∧ ¬ EndSlot r)).length).head?, ValidSlot r
        · rw [if_pos h3, if_pos h3]
          dsimp only
          by_cases h4 : (slotEntry r).flags.testBit 2 = false
          · rw [if_pos h4, List.filter_cons_of_pos (p := fun e : Entry => decide (e.flags.testBit 2 = false)) (by simpa using h4)]
          · rw [if_neg h4, List.filter_cons_of_neg (p := fun e : Entry => decide (e.flags.testBit 2 = false)) (by simpa using h4)]
        · rw [if_neg h3, if_neg h3]
    · rw [if_pos h1, List.takeWhile_cons_of_neg (p := fun r : Bytes => decide (ValidSlot r ∧ ¬ EndSlot r)) (by simp [h1]), if_neg (by
        intro hc
        exact h1 (hc r rfl))]

/-- C45: the recorded entries of a block are its slots up to the end, in order and without those that have bit 2
of the flags set; a slot before the end that is not valid is an error. -/
theorem C45_table (b : Bytes) (hb : b.length = 0x4000) : diffAreaEntries b =
    if ∀ r ∈ (slots b)[(usedSlots b).length]?, ValidSlot r then
      .ok (((usedSlots b).map slotEntry).filter fun e => decide (e.flags.testBit 2 = false))
    else .error .ShadowBlockException := by
  have h := diffAreaLoop_eq b hb 508 0 rfl
  rw [← List.range_eq_range'] at h
  unfold diffAreaEntries
  show diffAreaLoop b (0x80 + 32 * 0) = _
  rw [h]
  show slotLoop (slots b) = _
  rw [slotLoop_eq, List.head?_drop]
  rfl

theorem recorded_valid {b : Bytes} (hb : b.length = 0x4000) {l : List Entry} (h : diffAreaEntries b = .ok l) :
    ∀ e ∈ l, ¬ (IsForwarder e ∧ IsOverlay e) := by
  rw [C45_table b hb] at h
  split at h
  · injection h with h
    subst h
    intro e he
    obtain ⟨r, hr, rfl⟩ := List.mem_map.mp (List.mem_filter.mp he).1
    have : ∀ (l : List Bytes), r ∈ l.takeWhile (fun r => decide (ValidSlot r ∧ ¬ EndSlot r)) → ValidSlot r := by
      intro l
      induction l with
      | nil => intro h; cases h
      | cons x xs ih =>
        intro h
        rw [List.takeWhile_cons] at h
        split at h
        · rename_i hx
          rcases List.mem_cons.mp h with rfl | h
          · exact (of_decide_eq_true hx).1
          · exact ih h
        · cases h
    exact (this _ hr).2.2.2
  · cases h

/-- C45 is not vacuous: the block 0x8000 is forwarded to 0x4000, the copy recorded for 0x8000 afterwards belongs
to 0x4000 (and only the first one), an overlay of 0x8000 stays. -/
example : loadEntries [⟨0x4000, 0x8000, 0, 1, 0⟩, ⟨0x8000, 0, 0x30000, 2, 5⟩, ⟨0x8000, 0, 0x10000, 0, 0⟩,
    ⟨0x8000, 0, 0x14000, 0, 0⟩] =
    [⟨0x4000, 0x8000, 0, 1, 0⟩, ⟨0x4000, 0, 0x10000, 0, 0⟩, ⟨0x8000, 0, 0x30000, 2, 5⟩, ⟨0x8000, 0, 0x14000, 0, 0⟩] := by
  decide +kernel

end Verif.Props
