/-
C41: where the sectors of a shadow copy are.
-/
import Verif.Props.C45
namespace Verif.Props
open Verif.ShadowCopy Verif.Spec.Shadow

theorem any_some_iff {v : Option Nat} {p : Nat → Prop} [DecidablePred p] : v.any (fun n => decide (p n)) = true ↔ ∃ n, v = some n ∧ p n := by
  cases v with
  | none => simp
  | some n => simp

theorem copiedLater_iff (next : List Store) (o : Nat) (h : ∀ s ∈ next, Loaded s) :
    next.any (fun s => (s.entriesAt o).any (fun e => decide (e.flags &&& 2 = 0))) = true ↔ CopiedLater next o := by
  unfold CopiedLater
  rw [List.any_eq_true]
  constructor
  · rintro ⟨s, hs, h1⟩
    rw [entriesAt_eq s o (h s hs).sorted, List.any_eq_true] at h1
    obtain ⟨e, he, h2⟩ := h1
    rw [List.mem_filter, decide_eq_true_eq] at he
    rw [decide_eq_true_eq, flag2_zero] at h2
    exact ⟨s, hs, e, he.1, he.2, h2⟩
  · rintro ⟨s, hs, e, he, h1, h2⟩
    refine ⟨s, hs, ?_⟩
    rw [entriesAt_eq s o (h s hs).sorted, List.any_eq_true]
    exact ⟨e, List.mem_filter.mpr ⟨he, by simpa using h1⟩, by rw [decide_eq_true_eq, flag2_zero]; exact h2⟩

theorem switchMode_one (next : List Store) (o : Nat) (h : ∀ s ∈ next, Loaded s) : switchMode next o = 1 ↔ CopiedLater next o := by
  unfold switchMode
  split
  · simp [CopiedLater]
  · rw [← copiedLater_iff next o h]
    split
    · rename_i hc; simp [hc]
    · rename_i hc; simp [hc]

theorem switchMode_zero (next : List Store) (o : Nat) (h : ∀ s ∈ next, Loaded s) :
    switchMode next o = 0 ↔ next ≠ [] ∧ ¬ CopiedLater next o := by
  unfold switchMode
  split
  · simp
  · rename_i hne
    rw [← copiedLater_iff next o h]
    split
    · rename_i hc; simp [hc]
    · rename_i hc; simp [hc]; exact fun h => hne h

theorem outcome_lookupInVolume (s : Store) (o : Nat) (f : Bool) (good : Prop) : Outcome (.ok (lookupInVolume s o f))
    (fun i => if Unused s o ∧ s.returnNull = true ∧ f = false then .zero else .volume (o + i * 512)) good := by
  unfold lookupInVolume
  by_cases h1 : s.checkBitmap o = true
  · rw [if_neg (by rw [h1]; decide)]
    rw [check_iff] at h1
    by_cases h2 : s.returnNull = true ∧ f = false
    · rw [if_pos (by simp [h2])]
      exact (outcome_zero good).congr fun i _ => by rw [if_pos ⟨h1, h2⟩]
    · rw [if_neg (by simpa using h2)]
      exact (outcome_original o good).congr fun i _ => by rw [if_neg (fun hc => h2 hc.2)]
  · rw [if_pos (by simpa using h1)]
    rw [check_iff] at h1
    exact (outcome_original o good).congr fun i _ => by rw [if_neg (fun hc => h1 hc.1)]

theorem translateIn_outcome (vs : Option Nat) (s : Store) (next : List Store) (lookup : Nat → Bool → Except Exc (List Source))
    (nextSector : Nat → Bool → Nat → Source) (hs : Loaded s) (hn : ∀ s ∈ next, Loaded s)
    (hlk : ∀ o f, Outcome (lookup o f) (nextSector o f) (BlockOffset vs o ∧ ForwardersInside vs next)) (o : Nat) (ig fwd : Bool) :
    Outcome (translateIn vs s next lookup o ig fwd) (fun i => sectorOf s next (fun o f => nextSector o f i) o (!ig) fwd i)
      (BlockOffset vs o ∧ ForwardersInside vs (s :: next)) := by
  have hsub : ForwardersInside vs (s :: next) → ForwardersInside vs next := fun h x hx => h x (List.mem_cons_of_mem _ hx)
  unfold translateIn translateBody
  by_cases h1 : o % 0x4000 ≠ 0
  · rw [if_pos h1]
    exact .inr ⟨rfl, fun hg => h1 (Nat.mod_eq_zero_of_dvd hg.1.1)⟩
  rw [if_neg h1]
  by_cases h2 : vs.any (fun n => decide (o ≥ n)) = true
  · rw [if_pos h2]
    rw [any_some_iff] at h2
    obtain ⟨n, a, b⟩ := h2
    exact .inr ⟨rfl, fun hg => absurd (hg.1.2 n a) (by omega)⟩
  rw [if_neg h2]
  rw [any_some_iff] at h2
  rw [if_neg (by
    rintro ⟨a, b⟩
    rw [any_some_iff] at b
    obtain ⟨n, c, d⟩ := b
    exact h2 ⟨n, c, by omega⟩)]
  dsimp only
  -- the facts about the newer stores and the bitmap
  have m1 := switchMode_one next o hn
  have m0 := switchMode_zero next o hn
  generalize switchMode next o = mode at m1 m0
  have hbit := check_iff s o
  generalize s.checkBitmap o = bit at hbit
  have hnull : decide (o ∈ s.nullTargets) = true ↔ ∃ e ∈ s.diffArea, IsForwarder e ∧ e.inStore = o ∧ Unused s o := by
    rw [decide_eq_true_iff]; exact hs.nulls o
  generalize decide (o ∈ s.nullTargets) = isNull at hnull
  have hlo := (hlk o false).mono (good' := BlockOffset vs o ∧ ForwardersInside vs (s :: next)) (fun h => ⟨h.1, hsub h.2⟩)
  -- what an overlay is laid over
  have hfill : Outcome (if mode = 1 then lookup o false else if (!bit) = true then .ok (originalSources o)
        else if s.returnNull = true then .ok zeroSources else .ok (originalSources o))
      (fun i => if CopiedLater next o then nextSector o false i
        else if Unused s o ∧ s.returnNull = true then .zero else .volume (o + i * 512))
      (BlockOffset vs o ∧ ForwardersInside vs (s :: next)) := by
    by_cases hm : mode = 1
    · rw [if_pos hm]
      exact hlo.congr fun i _ => by rw [if_pos (m1.mp hm)]
    · rw [if_neg hm]
      have hm' : ¬ CopiedLater next o := fun hc => hm (m1.mpr hc)
      by_cases hb : bit = true
      · rw [if_neg (by rw [hb]; decide)]
        have hb := hbit.mp hb
        by_cases hr : s.returnNull = true
        · rw [if_pos hr]
          exact (outcome_zero _).congr fun i _ => by rw [if_neg hm', if_pos ⟨hb, hr⟩]
        · rw [if_neg hr]
          exact (outcome_original o _).congr fun i _ => by rw [if_neg hm', if_neg (fun hc => hr hc.2)]
      · rw [if_pos (by simpa using hb)]
        have hb : ¬ Unused s o := fun hc => hb (hbit.mpr hc)
        exact (outcome_original o _).congr fun i _ => by rw [if_neg hm', if_neg (fun hc => hb hc.1)]
  generalize (if mode = 1 then lookup o false else if (!bit) = true then Except.ok (originalSources o)
        else if s.returnNull = true then Except.ok zeroSources else Except.ok (originalSources o)) = fillR at hfill
  have hkinds : ∀ e ∈ s.entriesAt o, ¬ (IsForwarder e ∧ IsOverlay e) := by
    rw [entriesAt_eq s o hs.sorted]
    exact fun e he => hs.kinds e (List.mem_filter.mp he).1
  rcases scan_all ig fillR _ _ hfill (s.entriesAt o) [] hkinds _ (scan_start ig _) with ⟨st, h3, inv⟩ | ⟨h3, h4⟩
  rotate_left
  · rw [h3]; exact .inr ⟨rfl, h4⟩
  rw [h3]
  dsimp only
  rw [List.nil_append, entriesAt_eq s o hs.sorted] at inv
  -- in terms of the specification
  have eF : ∀ (p : Entry → Prop) [DecidablePred p], lastOf p (s.diffArea.filter fun e => decide (e.original = o)) = lastEntry s o p :=
    fun p _ => (lastEntry_eq s o p).symm
  obtain ⟨iF, iR, iO, iC, iE, iN, iS⟩ := inv
  unfold scanned at iS
  simp only [eF] at iF iR iO iC iN iS
  clear eF h3 hkinds hfill
  -- null targets
  have hNT : (!st.regular && !fwd && isNull && mode == 0 && s.returnNull) = true ↔ NullTarget s next o fwd := by
    unfold NullTarget
    simp only [Bool.and_eq_true, Bool.not_eq_true', beq_iff_eq, iR, m0, hnull, Option.isSome_eq_false_iff, Option.isNone_iff_eq_none]
    constructor
    · rintro ⟨⟨⟨⟨a, b⟩, c⟩, d⟩, e⟩; exact ⟨e, d.1, d.2, b, c, a⟩
    · rintro ⟨e, d1, d2, b, c, a⟩; exact ⟨⟨⟨⟨a, b⟩, c⟩, d1, d2⟩, e⟩
  have hUN : (st.forward.isNone && !st.regular && !st.overlay && bit && mode == 0 && s.returnNull) = true ↔
      lastEntry s o Forwards = none ∧ lastEntry s o IsCopy = none ∧ lastEntry s o IsOverlay = none ∧ Unused s o ∧
      (next ≠ [] ∧ ¬ CopiedLater next o) ∧ s.returnNull = true := by
    simp only [Bool.and_eq_true, Bool.not_eq_true', beq_iff_eq, iR, iO, iF, m0, hbit, Option.isSome_eq_false_iff, Option.isNone_iff_eq_none,
      Option.map_eq_none_iff, and_assoc]
  generalize hA : (!st.regular && !fwd && isNull && mode == 0 && s.returnNull) = a at hNT
  generalize hB : (st.forward.isNone && !st.regular && !st.overlay && bit && mode == 0 && s.returnNull) = b at hUN
  -- the sectors of the list so far
  have hlist : st.newOffsets ≠ [] → ∀ (Q : Nat → Source), (∀ i, i < 32 →
      (match (if (!ig) = true then lastEntry s o (Overlays i) else none), lastEntry s o IsCopy with
       | some e, _ => .store (e.dataBlock + i * 512)
       | none, some e => .store (e.dataBlock + i * 512)
       | none, none => if CopiedLater next o then nextSector o false i
          else if Unused s o ∧ s.returnNull = true then .zero else .volume (o + i * 512)) = Q i) →
      Outcome (.ok st.newOffsets) Q (BlockOffset vs o ∧ ForwardersInside vs (s :: next)) := by
    intro hne Q hQ
    refine .inl ⟨_, rfl, iE.resolve_left hne, fun i hi => ?_⟩
    rw [iS hne i hi, ← hQ i hi]
    generalize (if (!ig) = true then lastEntry s o (Overlays i) else none) = x
    generalize lastEntry s o IsCopy = y
    cases x <;> cases y <;> rfl
  have hlen : st.newOffsets.length = 0 ↔ st.newOffsets = [] := List.length_eq_zero_iff
  have hbF : st.forward ≠ none → b = false := by
    intro hc
    rw [← hB]
    cases hf : st.forward with
    | none => exact absurd hf hc
    | some x => rfl
  cases hcopy : lastEntry s o IsCopy with
  | some copy =>
    -- there is a copy of the block
    have hne : st.newOffsets ≠ [] := fun hc => by rw [iN.mp hc |>.1] at hcopy; cases hcopy
    have hreg : st.regular = true := by rw [iR, hcopy]; rfl
    have ha : a = false := by rw [← hA, hreg]; rfl
    have hb : b = false := by rw [← hB, hreg]; simp
    have hgoal : Outcome (.ok st.newOffsets) (fun i => sectorOf s next (fun o f => nextSector o f i) o (!ig) fwd i)
        (BlockOffset vs o ∧ ForwardersInside vs (s :: next)) := by
      refine hlist hne _ (fun i _ => ?_)
      unfold sectorOf
      rw [hcopy]
      cases ig with
      | true => simp only [Bool.not_true]; cases lastEntry s o (Overlays i) <;> rfl
      | false => simp only [Bool.not_false]; cases lastEntry s o (Overlays i) <;> rfl
    rw [hreg, ha, hb]
    cases st.forward with
    | none => dsimp only; rw [if_neg (by decide), if_neg (by decide), if_neg (fun hc => hne (hlen.mp hc))]; exact hgoal
    | some t =>
      dsimp only
      rw [if_pos rfl, if_neg (by decide), if_neg (by decide), if_neg (fun hc => hne (hlen.mp hc))]; exact hgoal
  | none =>
    have hreg : st.regular = false := by rw [iR, hcopy]; rfl
    by_cases hov : (st.overlay && !ig) = true
    · -- overlays of something else
      rw [Bool.and_eq_true, Bool.not_eq_true', iO] at hov
      obtain ⟨hov1, rfl⟩ := hov
      have hne : st.newOffsets ≠ [] := by
        intro hc
        rcases (iN.mp hc).2 with h | h
        · cases h
        · rw [h] at hov1; cases hov1
      have hovT : st.overlay = true := by rw [iO]; exact hov1
      have hb : b = false := by rw [← hB, hovT]; simp
      have hspec : ∀ i, sectorOf s next (fun o f => nextSector o f i) o true fwd i =
          if NullTarget s next o fwd then .zero
          else match lastEntry s o (Overlays i) with
            | some overlay => .store (overlay.dataBlock + i * 512)
            | none => match lastEntry s o Forwards with
              | some forwarder => nextSector forwarder.inStore true i
              | none => if CopiedLater next o then nextSector o false i
                  else if Unused s o ∧ s.returnNull = true then .zero else .volume (o + i * 512) := by
        intro i
        unfold sectorOf
        rw [hcopy]
        dsimp only
        rw [if_pos ⟨rfl, hov1⟩]
        rfl
      cases hfw : lastEntry s o Forwards with
      | none =>
        have hf : st.forward = none := by rw [iF, hfw]; rfl
        rw [hf, hb]
        dsimp only
        by_cases hn : a = true
        · rw [if_pos hn]
          exact (outcome_zero _).congr fun i _ => by rw [Bool.not_false, hspec, if_pos (hNT.mp hn)]
        · rw [if_neg hn, if_neg (by decide), if_neg (fun hc => hne (hlen.mp hc))]
          refine hlist hne _ (fun i _ => ?_)
          rw [Bool.not_false, hspec, if_neg (fun hc => hn (hNT.mpr hc)), hcopy, hfw, if_pos rfl]
          cases lastEntry s o (Overlays i) <;> rfl
      | some forwarder =>
        have hf : st.forward = some forwarder.inStore := by rw [iF, hfw]; rfl
        rw [hf, hb, hreg, hovT]
        dsimp only
        rw [if_neg (by decide), if_pos (by decide)]
        have hfmem : forwarder ∈ s.diffArea ∧ Forwards forwarder := by
          rw [lastEntry_eq] at hfw
          have := lastOf_mem hfw
          exact ⟨(List.mem_filter.mp this.1).1, this.2⟩
        rcases hlk forwarder.inStore true with ⟨l, b1, b2, b3⟩ | ⟨b1, b2⟩
        · rw [b1]
          dsimp only
          obtain ⟨l', c1, c2, c3⟩ := overwrite_ok (fun i => !sectorBit st.cumulative i)
            (sourceAt l)
            (fun i => nextSector forwarder.inStore true i) st.newOffsets (iE.resolve_left hne) (by
              intro i hi _; unfold sourceAt; rw [b3 i hi])
          rw [c1]
          dsimp only
          by_cases hn : a = true
          · rw [if_pos hn]
            exact (outcome_zero _).congr fun i _ => by rw [Bool.not_false, hspec, if_pos (hNT.mp hn)]
          · rw [if_neg hn, if_neg (by decide), if_neg (by rw [c2]; decide)]
            refine .inl ⟨l', rfl, c2, fun i hi => ?_⟩
            rw [c3 i hi, Bool.not_false]
            show _ = some (sectorOf s next (fun o f => nextSector o f i) o true fwd i)
            rw [hspec, if_neg (fun hc => hn (hNT.mpr hc)), sectorBit_eq, iC i]
            cases ho : lastEntry s o (Overlays i) with
            | none => simp [hfw]
            | some x =>
              simp only [Option.isSome_some, Bool.not_false, Bool.and_true, Bool.not_true, Bool.false_eq_true, if_false]
              rw [iS hne i hi]
              simp [ho]
        · rw [b1]
          exact .inr ⟨rfl, fun hg => b2 ⟨hg.2 s (by simp) forwarder hfmem.1 hfmem.2, hsub hg.2⟩⟩
    · have hempty : st.newOffsets = [] := by
        refine iN.mpr ⟨hcopy, ?_⟩
        rw [Bool.and_eq_true, Bool.not_eq_true', iO] at hov
        cases ig with
        | true => exact .inl rfl
        | false =>
          cases hh : lastEntry s o IsOverlay with
          | none => exact .inr rfl
          | some x => rw [hh] at hov; exact absurd ⟨rfl, rfl⟩ hov
      have hspec : ∀ i, sectorOf s next (fun o f => nextSector o f i) o (!ig) fwd i =
          match lastEntry s o Forwards with
          | some forwarder => nextSector forwarder.inStore true i
          | none => if NullTarget s next o fwd then .zero
              else if Unused s o ∧ lastEntry s o IsOverlay = none ∧ next ≠ [] ∧ ¬ CopiedLater next o ∧ s.returnNull = true then .zero
              else nextSector o false i := by
        intro i
        unfold sectorOf
        rw [hcopy]
        dsimp only
        rw [if_neg (by rw [← iO]; simpa [and_comm] using hov)]
        rfl
      cases hfw : lastEntry s o Forwards with
      | none =>
        have hf : st.forward = none := by rw [iF, hfw]; rfl
        rw [hf, hempty]
        dsimp only
        by_cases hn : a = true
        · rw [if_pos hn]
          exact (outcome_zero _).congr fun i _ => by rw [hspec, hfw]; dsimp only; rw [if_pos (hNT.mp hn)]
        · rw [if_neg hn]
          have hn' : ¬ NullTarget s next o fwd := fun hc => hn (hNT.mpr hc)
          by_cases hu : b = true
          · rw [if_pos hu]
            have hu := hUN.mp hu
            exact (outcome_zero _).congr fun i _ => by
              rw [hspec, hfw]
              dsimp only
              rw [if_neg hn', if_pos ⟨hu.2.2.2.1, hu.2.2.1, hu.2.2.2.2.1.1, hu.2.2.2.2.1.2, hu.2.2.2.2.2⟩]
          · rw [if_neg hu, if_pos (show ([] : List Source).length = 0 from rfl)]
            exact hlo.congr fun i _ => by
              rw [hspec, hfw]
              dsimp only
              rw [if_neg hn', if_neg (fun hc => hu (hUN.mpr ⟨hfw, hcopy, hc.2.1, hc.1, ⟨hc.2.2.1, hc.2.2.2.1⟩, hc.2.2.2.2⟩))]
      | some forwarder =>
        have hf : st.forward = some forwarder.inStore := by rw [iF, hfw]; rfl
        rw [hf, hreg]
        dsimp only
        rw [if_neg (by decide), if_neg hov]
        have hfmem : forwarder ∈ s.diffArea ∧ Forwards forwarder := by
          have hfw' := hfw
          rw [lastEntry_eq] at hfw'
          have := lastOf_mem hfw'
          exact ⟨(List.mem_filter.mp this.1).1, this.2⟩
        refine ((hlk forwarder.inStore true).congr fun i _ => ?_).mono (fun hg => ⟨hg.2 s (by simp) forwarder hfmem.1 hfmem.2, hsub hg.2⟩)
        rw [hspec, hfw]

theorem translate_outcome (vs : Option Nat) (stores : List Store) (hne : stores ≠ []) (hl : ∀ s ∈ stores, Loaded s) (o : Nat) (ig fwd : Bool) :
    Outcome (translate vs stores o ig fwd) (sector stores o (!ig) fwd) (BlockOffset vs o ∧ ForwardersInside vs stores) := by
  induction stores generalizing o ig fwd with
  | nil => exact absurd rfl hne
  | cons s next ih =>
    unfold translate
    refine (translateIn_outcome vs s next _ (fun o f i => match next with
      | [] => if Unused s o ∧ s.returnNull = true ∧ f = false then .zero else .volume (o + i * 512)
      | _ :: _ => sector next o false f i) (hl s (by simp)) (fun x hx => hl x (List.mem_cons_of_mem _ hx)) ?_ o ig fwd).congr ?_
    · intro o f
      cases next with
      | nil => exact outcome_lookupInVolume s o f _
      | cons s2 rest => exact ih (by simp) (fun x hx => hl x (List.mem_cons_of_mem _ hx)) o true f
    · intro i _
      rw [sector.eq_def]
      cases next <;> rfl

/-! ### What selecting a shadow copy loads -/

theorem chain_forall {α : Type} (vol : Bytes × Nat) (k : Kind) (f : Bytes → Except Exc α) (P : α → Prop)
    (hP : ∀ b a, b.length = 0x4000 → f b = .ok a → P a) (hk : ∀ b, block k b = .ok () → b.length = 0x4000)
    (fuel offset : Nat) (l : List α) (h : chain vol k f fuel offset = some (.ok l)) : ∀ a ∈ l, P a := by
  induction fuel generalizing offset l with
  | zero =>
    rw [chain] at h
    split at h
    · cases h; simp
    · cases h
  | succ fuel ih =>
    rw [chain] at h
    split at h
    · cases h; simp
    · split at h
      · cases h
      rename_i buf _
      split at h
      · cases h
      rename_i hbl
      split at h
      · cases h; simp
      split at h
      · cases h
      rename_i a ha
      split at h
      · cases h
      · cases h
      rename_i rest hr
      cases h
      intro x hx
      rcases List.mem_cons.mp hx with rfl | hx
      · exact hP buf x (hk buf hbl) ha
      · exact ih _ _ hr x hx

theorem survivors_mem {l : List Entry} {e : Entry} (h : e ∈ survivors l) : e ∈ l := by
  induction l with
  | nil => cases h
  | cons f rest ih =>
    rw [survivors] at h
    split at h
    · exact List.mem_cons_of_mem _ (ih h)
    · rcases List.mem_cons.mp h with rfl | h
      · simp
      · exact List.mem_cons_of_mem _ (ih h)

theorem loadEntries_kinds (recorded : List Entry) (h : ∀ e ∈ recorded, ¬ (IsForwarder e ∧ IsOverlay e)) :
    ∀ e ∈ loadEntries recorded, ¬ (IsForwarder e ∧ IsOverlay e) := by
  intro e he
  obtain ⟨fin, h1, -, h3⟩ := C45_load recorded
  have hm : e ∈ (survivors fin).filter (fun x => decide (x.original = e.original)) := by
    rw [← h3]
    exact List.mem_filter.mpr ⟨he, by simp⟩
  have hm := survivors_mem (List.mem_filter.mp hm).1
  obtain ⟨i, hi⟩ := List.mem_iff_getElem?.mp hm
  have hlt : i < recorded.length := by
    rw [← h1.length]
    exact (List.getElem?_eq_some_iff.mp hi).1
  have hr : recorded[i]? = some recorded[i] := List.getElem?_eq_getElem hlt
  have hf := (h1.others i _ e hr hi).2.2.1
  have := h recorded[i] (List.getElem_mem hlt)
  unfold IsForwarder IsOverlay at this ⊢
  rw [hf]
  exact this

theorem nullTargetsOf_iff (bm pbm : Bytes) (da : List Entry) (s : Store) (h1 : s.bitmap = bm) (h2 : s.previousBitmap = pbm) (o : Nat) :
    o ∈ nullTargetsOf bm pbm da ↔ ∃ e ∈ da, IsForwarder e ∧ e.inStore = o ∧ Unused s o := by
  subst h1 h2
  unfold nullTargetsOf
  rw [List.mem_map]
  have hc : ∀ o, ShadowCopy.checkBitmap s.bitmap s.previousBitmap o = true ↔ Unused s o := fun o => check_iff s o
  constructor
  · rintro ⟨e, he, rfl⟩
    rw [List.mem_filter, Bool.and_eq_true, decide_eq_true_eq, flag1, hc] at he
    exact ⟨e, he.1, he.2.1, rfl, he.2.2⟩
  · rintro ⟨e, he, h1, rfl, h2⟩
    refine ⟨e, ?_, rfl⟩
    rw [List.mem_filter, Bool.and_eq_true, decide_eq_true_eq, flag1, hc]
    exact ⟨he, h1, h2⟩

theorem block_length (k : Kind) (b : Bytes) (h : block k b = .ok ()) : b.length = 0x4000 := by
  unfold block at h
  exact Classical.byContradiction fun hc => by rw [if_pos hc] at h; cases h

theorem readStore_loaded {img : Image} {a b : Bytes} {fuel : Nat} {s : Store} (h : readStore img a b fuel = some (.ok s)) : Loaded s := by
  unfold readStore at h
  split at h
  · cases h
  · cases h
  rename_i bm _
  split at h
  · cases h
  · cases h
  rename_i pbm _
  split at h
  · cases h
  · cases h
  split at h
  · cases h
  split at h
  · cases h
  · cases h
  rename_i da hda
  cases h
  unfold readDiffArea at hda
  split at hda
  · cases hda
  · cases hda
  rename_i tables ht
  cases hda
  refine ⟨?_, ?_, fun o => nullTargetsOf_iff bm pbm _ _ rfl rfl o⟩
  · obtain ⟨-, -, h2, -⟩ := C45_load tables.flatten
    exact h2
  · refine loadEntries_kinds _ (fun e he => ?_)
    obtain ⟨t, ht1, ht2⟩ := List.mem_flatten.mp he
    exact chain_forall img.store .diffArea diffAreaEntries (fun t => ∀ e ∈ t, ¬ (IsForwarder e ∧ IsOverlay e))
      (fun b a hb ha => recorded_valid hb ha) (block_length .diffArea) fuel _ tables ht t ht1 e ht2

/-- What a selected shadow copy is made of: at least one store, and all of them as loaded. -/
theorem C41_selected (img : Image) (fuel : Nat) (key : Key) (stores : List Store) (h : select img fuel key = some (.ok stores)) :
    stores ≠ [] ∧ ∀ s ∈ stores, Loaded s := by
  unfold select at h
  split at h
  · cases h
  · cases h
  rename_i o _
  split at h
  · cases h
  have key : ∀ (depth : Nat) (key : Key) (stores : List Store), selectStores img o fuel depth key = some (.ok stores) →
      stores ≠ [] ∧ ∀ s ∈ stores, Loaded s := by
    intro depth
    induction depth with
    | zero => intro key stores h; cases h
    | succ depth ih =>
      intro key stores h
      rw [selectStores] at h
      split at h
      · cases h
      split at h
      · cases h
      split at h
      · cases h
      · cases h
      rename_i s hs
      have hs := readStore_loaded hs
      split at h
      · cases h
      · rename_i next hn
        cases h
        refine ⟨by simp, fun x hx => ?_⟩
        rcases List.mem_cons.mp hx with rfl | hx
        · exact hs
        · exact (ih _ _ hn).2 x hx
      · split at h
        · cases h
          refine ⟨by simp, fun x hx => ?_⟩
          rcases List.mem_cons.mp hx with rfl | hx
          · exact hs
          · cases hx
        · cases h
  exact key _ _ _ h

/-! ### The property -/

/-- C41: after selecting a shadow copy, a block inside the volume is translated into exactly 32 sources, and the
source of each sector is the one given by `Spec.Shadow.sector`, as long as the forwarders lead to blocks inside
the volume. -/
theorem C41_sectors (img : Image) (fuel : Nat) (key : Key) (stores : List Store) (h : select img fuel key = some (.ok stores))
    (o : Nat) (ho : BlockOffset img.volumeSize o) (hf : ForwardersInside img.volumeSize stores) :
    ∃ l, translate img.volumeSize stores o false false = .ok l ∧ l.length = 32 ∧
      ∀ i, i < 32 → l[i]? = some (sector stores o true false i) := by
  obtain ⟨h1, h2⟩ := C41_selected img fuel key stores h
  rcases translate_outcome img.volumeSize stores h1 h2 o false false with h | h
  · exact h
  · exact absurd ⟨ho, hf⟩ h.2

/-- C41, without an assumption on the forwarders and the offset: the result is right, or it is a `ValueError`. -/
theorem C41_no_wrong_sector (img : Image) (fuel : Nat) (key : Key) (stores : List Store) (h : select img fuel key = some (.ok stores))
    (o : Nat) : translate img.volumeSize stores o false false = .error .ValueError ∨
    ∃ l, translate img.volumeSize stores o false false = .ok l ∧ l.length = 32 ∧
      ∀ i, i < 32 → l[i]? = some (sector stores o true false i) := by
  obtain ⟨h1, h2⟩ := C41_selected img fuel key stores h
  rcases translate_outcome img.volumeSize stores h1 h2 o false false with h | h
  · exact .inr h
  · exact .inl h.1

/-- C41: an offset that is not the one of a block inside the volume is always a `ValueError`. -/
theorem C41_outside (vs : Option Nat) (stores : List Store) (o : Nat) (ig fwd : Bool) (h : ¬ BlockOffset vs o) :
    translate vs stores o ig fwd = .error .ValueError := by
  cases stores with
  | nil => rfl
  | cons s next =>
    unfold translate translateIn translateBody
    by_cases h1 : o % 0x4000 ≠ 0
    · rw [if_pos h1]
    rw [if_neg h1, if_pos]
    rw [any_some_iff]
    refine Classical.byContradiction fun hc => h ⟨Nat.dvd_of_mod_eq_zero (by omega), fun n hn => ?_⟩
    exact Nat.lt_of_not_le fun hle => hc ⟨n, hn, hle⟩

/-! The precedence, in the cases that the property names. -/

/-- A sector in an overlay of the selected shadow copy comes from (the last) one, unless the block is a null
target. -/
theorem C41_overlay (s : Store) (newer : List Store) (o i : Nat) (e : Entry) (h : lastEntry s o (Overlays i) = some e)
    (hn : ¬ NullTarget s newer o false) : sector (s :: newer) o true false i = .store (e.dataBlock + i * 512) := by
  rw [sector, sectorOf]
  cases lastEntry s o IsCopy with
  | some c => dsimp only; rw [h]; rfl
  | none =>
    dsimp only
    have : (lastEntry s o IsOverlay).isSome = true := by
      rw [lastEntry_eq] at h ⊢
      cases hh : lastOf IsOverlay (s.diffArea.filter fun e => decide (e.original = o)) with
      | none => exact absurd hh (overlays_isOverlay h)
      | some x => rfl
    rw [if_pos ⟨rfl, this⟩, if_neg hn, h]

/-- Otherwise it comes from the copied block. -/
theorem C41_copy (s : Store) (newer : List Store) (o i : Nat) (e : Entry) (h : lastEntry s o IsCopy = some e)
    (ho : lastEntry s o (Overlays i) = none) (sel fwd : Bool) : sector (s :: newer) o sel fwd i = .store (e.dataBlock + i * 512) := by
  rw [sector, sectorOf, h, ho]

/-- Otherwise (no copy) from the block that the forwarder leads to, in the next store. -/
theorem C41_forwarded (s n : Store) (newer : List Store) (o i : Nat) (e : Entry) (h : lastEntry s o IsCopy = none)
    (ho : lastEntry s o (Overlays i) = none) (hf : lastEntry s o Forwards = some e) (hn : ¬ NullTarget s (n :: newer) o false) :
    sector (s :: n :: newer) o true false i = sector (n :: newer) e.inStore false true i := by
  rw [sector, sectorOf, h, ho, hf]
  dsimp only
  rw [if_neg hn, ite_self]

/-- Otherwise (the block is not in the store) from the next store, if that has it or the block was used. -/
theorem C41_newer (s n : Store) (newer : List Store) (o i : Nat) (h : ∀ e ∈ s.diffArea, e.original ≠ o)
    (hn : CopiedLater (n :: newer) o ∨ ¬ Unused s o ∨ s.returnNull = false) :
    sector (s :: n :: newer) o true false i = sector (n :: newer) o false false i := by
  have hnone : ∀ (p : Entry → Prop) [DecidablePred p], lastEntry s o p = none := by
    intro p _
    unfold lastEntry
    rw [List.getLast?_eq_none_iff, List.filter_eq_nil_iff]
    intro e he
    simp [h e he]
  have hnt : ¬ NullTarget s (n :: newer) o false := by
    rintro ⟨a, -, b, -, ⟨e, -, -, -, c⟩, -⟩
    rcases hn with hn | hn | hn
    · exact b hn
    · exact hn c
    · rw [a] at hn; cases hn
  rw [sector, sectorOf, hnone IsCopy, hnone IsOverlay, hnone Forwards]
  dsimp only
  rw [if_neg (by simp), if_neg hnt, if_neg]
  rintro ⟨a, -, -, b, c⟩
  rcases hn with hn | hn | hn
  · exact b hn
  · exact hn a
  · rw [c] at hn; cases hn

/-- Otherwise, in an older store, it is zeros. -/
theorem C41_unused (s n : Store) (newer : List Store) (o i : Nat) (h : ∀ e ∈ s.diffArea, e.original ≠ o)
    (hn : ¬ CopiedLater (n :: newer) o) (hu : Unused s o) (hr : s.returnNull = true) :
    sector (s :: n :: newer) o true false i = .zero := by
  have hnone : ∀ (p : Entry → Prop) [DecidablePred p], lastEntry s o p = none := by
    intro p _
    unfold lastEntry
    rw [List.getLast?_eq_none_iff, List.filter_eq_nil_iff]
    intro e he
    simp [h e he]
  rw [sector, sectorOf, hnone IsCopy, hnone IsOverlay, hnone Forwards]
  dsimp only
  rw [if_neg (by simp)]
  by_cases hnt : NullTarget s (n :: newer) o false
  · rw [if_pos hnt]
  · rw [if_neg hnt, if_pos ⟨hu, rfl, by simp, hn, hr⟩]

/-- In the newest store: from the current volume, or zeros if the block was unused. -/
theorem C41_volume (s : Store) (o i : Nat) (h : ∀ e ∈ s.diffArea, e.original ≠ o) :
    sector [s] o true false i = if Unused s o ∧ s.returnNull = true then .zero else .volume (o + i * 512) := by
  have hnone : ∀ (p : Entry → Prop) [DecidablePred p], lastEntry s o p = none := by
    intro p _
    unfold lastEntry
    rw [List.getLast?_eq_none_iff, List.filter_eq_nil_iff]
    intro e he
    simp [h e he]
  rw [sector, sectorOf, hnone IsCopy, hnone IsOverlay, hnone Forwards]
  dsimp only
  rw [if_neg (by simp), if_neg (by rintro ⟨-, hc, -⟩; exact hc rfl), if_neg (by rintro ⟨-, -, hc, -⟩; exact hc rfl)]
  simp

/-- The exception in `C41_overlay` is real: the block 0x8000 is the target of a forwarder and was unused, and the
store has an overlay with its first sector, but all the sectors are given as zeros. -/
theorem C41_overlay_lost_at_null_target : ∃ (s n : Store) (e : Entry), Loaded s ∧ Loaded n ∧ lastEntry s 0x8000 (Overlays 0) = some e ∧
    translate none [s, n] 0x8000 false false = .ok zeroSources := by
  refine ⟨⟨0x40000, [4], [4], [⟨0x4000, 0x8000, 0, 1, 0⟩, ⟨0x8000, 0, 0x20000, 2, 1⟩], [0x8000], true⟩, ⟨0x40000, [], [], [], [], true⟩,
    ⟨0x8000, 0, 0x20000, 2, 1⟩, ⟨by decide +kernel, by decide +kernel, fun o => ?_⟩, ⟨by simp, by simp, by simp⟩, by decide +kernel, by decide +kernel⟩
  constructor
  · intro h
    simp only [List.mem_singleton] at h
    subst h
    exact ⟨⟨0x4000, 0x8000, 0, 1, 0⟩, by simp, by decide +kernel, rfl, by decide +kernel⟩
  · rintro ⟨e, he, h1, rfl, -⟩
    simp only [List.mem_cons, List.not_mem_nil, or_false] at he
    rcases he with rfl | rfl
    · simp
    · exact absurd h1 (by decide)

/-- A mixed case of the precedence: an overlay with the sectors 0 and 2 over a forwarder to 0x8000, of which the
next store has a copy. -/
example : (translate none [⟨0x40000, [], [], [⟨0x4000, 0x8000, 0, 1, 0⟩, ⟨0x4000, 0, 0x20000, 2, 5⟩], [], true⟩,
    ⟨0x40000, [], [], [⟨0x8000, 0, 0x30000, 0, 0⟩], [], true⟩] 0x4000 false false).toOption.map (·.take 4) =
    some [.store 0x20000, .store 0x30200, .store 0x20400, .store 0x30600] := by decide +kernel

end Verif.Props
