/-
Lemmas about the translation of offsets in shadow copies.
-/
import Verif.Spec.ShadowCopy
import Verif.Basic.Bits
namespace Verif.Props
open Verif.ShadowCopy Verif.Spec.Shadow

theorem flag1 (e : Entry) : e.flags &&& 1 > 0 ↔ IsForwarder e := and_two_pow_pos e.flags 0
theorem flag2 (e : Entry) : e.flags &&& 2 > 0 ↔ IsOverlay e := and_two_pow_pos e.flags 1
theorem flag2_zero (e : Entry) : e.flags &&& 2 = 0 ↔ ¬ IsOverlay e := by rw [← flag2]; omega
theorem flag3 (e : Entry) : e.flags &&& (1 ||| 2) ≠ 0 ↔ IsForwarder e ∨ IsOverlay e := by
  rw [Nat.and_or_distrib_left, ← flag1, ← flag2]
  constructor
  · intro h
    by_cases h1 : e.flags &&& 1 = 0
    · rw [h1, Nat.zero_or] at h; right; omega
    · left; omega
  · intro h h0
    have h0 := Nat.or_eq_zero_iff.mp h0
    omega

/-! ### Bitmaps -/

theorem leNat_testBit (b : Bytes) (n : Nat) : (leNat b).testBit n = ((b[n / 8]?).map (fun x => x.toNat.testBit (n % 8))).getD false := by
  induction b generalizing n with
  | nil => simp [leNat]
  | cons x xs ih =>
    have hx := x.toNat_lt
    show (x.toNat + 256 * leNat xs).testBit n = _
    rw [Nat.add_comm, show (256 : Nat) = 2 ^ 8 from rfl, Nat.testBit_two_pow_mul_add _ hx]
    by_cases h : n < 8
    · rw [if_pos h, show n / 8 = 0 by omega, show n % 8 = n by omega]
      rfl
    · rw [if_neg h, ih, show n / 8 = (n - 8) / 8 + 1 by omega, List.getElem?_cons_succ, show (n - 8) % 8 = n % 8 by omega]

theorem shift_and_one (x n : Nat) : x >>> n &&& 1 > 0 ↔ x.testBit n = true := by
  rw [and_two_pow_pos (x >>> n) 0, Nat.testBit_shiftRight, Nat.add_zero]

theorem sectorBit_eq (x n : Nat) : sectorBit x n = x.testBit n := by
  unfold sectorBit
  rw [Bool.eq_iff_iff, decide_eq_true_iff, shift_and_one]

theorem bitAt_eq (b : Bytes) (o : Nat) : bitAt b o =
    if o / 0x4000 < 8 * b.length then some ((leNat b).testBit (o / 0x4000)) else none := by
  unfold bitAt
  rw [leNat_testBit]
  split
  · rename_i h
    have h' : o / 0x4000 / 8 < b.length := by omega
    rw [List.getElem?_eq_getElem h']
    simp only [Option.map_some, Option.getD_some, Option.some.injEq]
    rw [Bool.eq_iff_iff, decide_eq_true_iff, shift_and_one]
  · rename_i h
    rw [List.getElem?_eq_none (by omega)]
    rfl

theorem checkBitmap_iff (bm pbm : Bytes) (o : Nat) : checkBitmap bm pbm o = true ↔
    (leNat bm).testBit (o / 0x4000) = true ∧ (o / 0x4000 < 8 * pbm.length → (leNat pbm).testBit (o / 0x4000) = true) := by
  unfold checkBitmap
  rw [bitAt_eq, bitAt_eq]
  have h1 : (if o / 0x4000 < 8 * bm.length then some ((leNat bm).testBit (o / 0x4000)) else none).getD false =
      (leNat bm).testBit (o / 0x4000) := by
    split
    · rfl
    · rename_i h
      rw [leNat_testBit, List.getElem?_eq_none (by omega)]
      rfl
  dsimp only
  rw [h1]
  by_cases h : o / 0x4000 < 8 * pbm.length
  · rw [if_pos h]
    dsimp only
    rw [Bool.and_eq_true]
    exact ⟨fun hh => ⟨hh.1, fun _ => hh.2⟩, fun hh => ⟨hh.1, hh.2 h⟩⟩
  · rw [if_neg h]
    dsimp only
    exact ⟨fun hh => ⟨hh, fun hc => absurd hc h⟩, fun hh => hh.1⟩

theorem check_iff (s : Store) (o : Nat) : s.checkBitmap o = true ↔ Unused s o := checkBitmap_iff _ _ _

/-! ### Entries at an offset -/

theorem takeWhile_sorted (l : List Entry) (o : Nat) (h : l.Pairwise (fun a b => a.original ≤ b.original)) (hl : ∀ e ∈ l, o ≤ e.original) :
    l.takeWhile (fun e => decide (e.original = o)) = l.filter (fun e => decide (e.original = o)) := by
  induction l with
  | nil => rfl
  | cons x xs ih =>
    rw [List.pairwise_cons] at h
    by_cases hx : x.original = o
    · rw [List.takeWhile_cons_of_pos (p := fun e : Entry => decide (e.original = o)) (by simpa using hx),
        List.filter_cons_of_pos (p := fun e : Entry => decide (e.original = o)) (by simpa using hx),
        ih h.2 (fun e he => hl e (List.mem_cons_of_mem _ he))]
    · rw [List.takeWhile_cons_of_neg (p := fun e : Entry => decide (e.original = o)) (by simpa using hx)]
      symm
      rw [List.filter_eq_nil_iff]
      intro e he
      have h1 := hl x (by simp)
      rcases List.mem_cons.mp he with rfl | he
      · simpa using hx
      · have := h.1 e he
        simp only [decide_eq_true_eq]
        omega

theorem entriesAt_eq (s : Store) (o : Nat) (h : s.diffArea.Pairwise (fun a b => a.original ≤ b.original)) :
    s.entriesAt o = s.diffArea.filter (fun e => decide (e.original = o)) := by
  unfold Store.entriesAt
  generalize s.diffArea = l at h
  induction l with
  | nil => rfl
  | cons x xs ih =>
    have hp := List.pairwise_cons.mp h
    by_cases hx : x.original = o
    · rw [List.dropWhile_cons_of_neg (by simpa using hx)]
      refine takeWhile_sorted _ _ h (fun e he => ?_)
      rcases List.mem_cons.mp he with rfl | he
      · omega
      · have := hp.1 e he; omega
    · rw [List.dropWhile_cons_of_pos (by simpa using hx), ih hp.2,
        List.filter_cons_of_neg (p := fun e : Entry => decide (e.original = o)) (by simpa using hx)]

/-- The last element that satisfies a condition, from the front. -/
def lastOf {α : Type} (p : α → Prop) [DecidablePred p] (l : List α) : Option α := (l.filter fun e => decide (p e)).getLast?

theorem lastOf_nil {α : Type} (p : α → Prop) [DecidablePred p] : lastOf p [] = none := rfl

theorem lastOf_snoc {α : Type} (p : α → Prop) [DecidablePred p] (l : List α) (e : α) :
    lastOf p (l ++ [e]) = if p e then some e else lastOf p l := by
  unfold lastOf
  rw [List.filter_append]
  split
  · rename_i h
    rw [List.filter_cons_of_pos (by simpa using h)]
    simp
  · rename_i h
    rw [List.filter_cons_of_neg (by simpa using h)]
    simp

theorem lastEntry_eq (s : Store) (o : Nat) (p : Entry → Prop) [DecidablePred p] :
    lastEntry s o p = lastOf p (s.diffArea.filter (fun e => decide (e.original = o))) := by
  unfold lastEntry lastOf
  rw [List.filter_filter]
  congr 2
  funext e
  rw [Bool.eq_iff_iff]
  simp only [decide_eq_true_eq, Bool.and_eq_true]
  exact And.comm

theorem lastOf_mem {α : Type} {p : α → Prop} [DecidablePred p] {l : List α} {e : α} (h : lastOf p l = some e) : e ∈ l ∧ p e := by
  have := List.mem_of_getLast? h
  rw [List.mem_filter, decide_eq_true_eq] at this
  exact this

theorem lastOf_none {α : Type} {p : α → Prop} [DecidablePred p] {l : List α} : lastOf p l = none ↔ ∀ e ∈ l, ¬ p e := by
  unfold lastOf
  rw [List.getLast?_eq_none_iff, List.filter_eq_nil_iff]
  simp

/-! ### Overwriting sectors -/

theorem overwrite_aux (p : Nat → Bool) (src : Nat → Except Exc Source) (f : Nat → Source) (l : List Source)
    (hs : ∀ i, i < 32 → p i = true → src i = .ok (f i)) (n : Nat) (hn : n ≤ 32) (hl : l.length = 32) :
    ∃ l', (List.range n).foldlM (overwriteStep p src) l = .ok l' ∧ l'.length = 32 ∧
      ∀ i, i < 32 → l'[i]? = if i < n ∧ p i = true then some (f i) else l[i]? := by
  induction n with
  | zero => exact ⟨l, rfl, hl, by simp⟩
  | succ n ih =>
    obtain ⟨l1, h1, h2, h3⟩ := ih (by omega)
    have hone : ∀ r, overwriteStep p src l1 n = .ok r →
        (List.range (n + 1)).foldlM (overwriteStep p src) l = .ok r := by
      intro r hr
      rw [List.range_succ, List.foldlM_append, h1]
      show ((overwriteStep p src l1 n) >>= fun s' => List.foldlM (overwriteStep p src) s' []) = _
      rw [hr]
      rfl
    cases hp : p n with
    | false =>
      refine ⟨l1, hone l1 (by unfold overwriteStep; rw [hp]; rfl), h2, fun i hi => ?_⟩
      rw [h3 i hi]
      by_cases hin : i = n
      · subst hin; simp [hp]
      · simp only [show i < n + 1 ↔ i < n by omega]
    | true =>
      refine ⟨l1.set n (f n), hone _ ?_, by simpa using h2, fun i hi => ?_⟩
      · unfold overwriteStep
        rw [if_pos hp, hs n (by omega) hp]
        dsimp only
        rw [if_pos (by omega)]
      · rw [List.getElem?_set]
        by_cases hin : n = i
        · subst hin
          rw [if_pos rfl, if_pos (by omega), if_pos ⟨by omega, hp⟩]
        · rw [if_neg hin, h3 i hi]
          simp only [show i < n + 1 ↔ i < n by omega]

theorem overwrite_ok (p : Nat → Bool) (src : Nat → Except Exc Source) (f : Nat → Source) (l : List Source) (hl : l.length = 32)
    (hs : ∀ i, i < 32 → p i = true → src i = .ok (f i)) :
    ∃ l', overwrite l p src = .ok l' ∧ l'.length = 32 ∧ ∀ i, i < 32 → l'[i]? = if p i = true then some (f i) else l[i]? := by
  obtain ⟨l', h1, h2, h3⟩ := overwrite_aux p src f l hs 32 (Nat.le_refl _) hl
  refine ⟨l', h1, h2, fun i hi => ?_⟩
  rw [h3 i hi]
  simp only [hi, true_and]

/-! ### Results -/

/-- A result is 32 sources given by `P`, or (only if `good` does not hold) a `ValueError`. -/
def Outcome (r : Except Exc (List Source)) (P : Nat → Source) (good : Prop) : Prop :=
  (∃ l, r = .ok l ∧ l.length = 32 ∧ ∀ i, i < 32 → l[i]? = some (P i)) ∨ (r = .error .ValueError ∧ ¬ good)

theorem outcome_original (o : Nat) (good : Prop) : Outcome (.ok (originalSources o)) (fun i => .volume (o + i * 512)) good := by
  refine .inl ⟨_, rfl, by simp [originalSources], fun i hi => ?_⟩
  unfold originalSources
  rw [List.getElem?_map, List.getElem?_range hi]
  rfl

theorem outcome_zero (good : Prop) : Outcome (.ok zeroSources) (fun _ => .zero) good := by
  refine .inl ⟨_, rfl, by simp [zeroSources], fun i hi => ?_⟩
  unfold zeroSources
  rw [List.getElem?_replicate, if_pos hi]

theorem Outcome.congr {r : Except Exc (List Source)} {P Q : Nat → Source} {good : Prop} (h : Outcome r P good)
    (hpq : ∀ i, i < 32 → P i = Q i) : Outcome r Q good := by
  rcases h with ⟨l, h1, h2, h3⟩ | h
  · exact .inl ⟨l, h1, h2, fun i hi => by rw [h3 i hi, hpq i hi]⟩
  · exact .inr h

theorem Outcome.mono {r : Except Exc (List Source)} {P : Nat → Source} {good good' : Prop} (h : Outcome r P good) (hg : good' → good) :
    Outcome r P good' := by
  rcases h with h | h
  · exact .inl h
  · exact .inr ⟨h.1, fun hc => h.2 (hg hc)⟩

/-! ### The loop over the entries -/

/-- The value of a sector after the entries `p` (which are all of one block). -/
def scanned (p : List Entry) (sel : Bool) (fill : Nat → Source) (i : Nat) : Source :=
  match (if sel then lastOf (Overlays i) p else none), lastOf IsCopy p with
  | some e, _ => .store (e.dataBlock + i * 512)
  | none, some e => .store (e.dataBlock + i * 512)
  | none, none => fill i

structure ScanInv (p : List Entry) (ignore : Bool) (fill : Nat → Source) (st : Scan) : Prop where
  forward : st.forward = (lastOf Forwards p).map (·.inStore)
  regular : st.regular = (lastOf IsCopy p).isSome
  overlay : st.overlay = (lastOf IsOverlay p).isSome
  cumulative : ∀ i, st.cumulative.testBit i = (!ignore && (lastOf (Overlays i) p).isSome)
  empty : st.newOffsets = [] ∨ st.newOffsets.length = 32
  nothing : st.newOffsets = [] ↔ lastOf IsCopy p = none ∧ (ignore = true ∨ lastOf IsOverlay p = none)
  sources : st.newOffsets ≠ [] → ∀ i, i < 32 → st.newOffsets[i]? = some (scanned p (!ignore) fill i)

theorem overlays_isOverlay {p : List Entry} {i : Nat} {e : Entry} (h : lastOf (Overlays i) p = some e) : lastOf IsOverlay p ≠ none := by
  intro hc
  exact lastOf_none.mp hc e (lastOf_mem h).1 (lastOf_mem h).2.1

theorem outcome_block (o : Nat) : (blockSources o).length = 32 ∧ ∀ i, i < 32 → (blockSources o)[i]? = some (.store (o + i * 512)) := by
  refine ⟨by simp [blockSources], fun i hi => ?_⟩
  unfold blockSources
  rw [List.getElem?_map, List.getElem?_range hi]
  rfl

theorem scan_step (p : List Entry) (e : Entry) (ignore : Bool) (fillR : Except Exc (List Source)) (fill : Nat → Source) (good : Prop)
    (hf : Outcome fillR fill good) (hk : ¬ (IsForwarder e ∧ IsOverlay e)) (st : Scan) (h : ScanInv p ignore fill st) :
    (∃ st', scanEntry ignore fillR st e = .ok st' ∧ ScanInv (p ++ [e]) ignore fill st') ∨
    (scanEntry ignore fillR st e = .error .ValueError ∧ ¬ good) := by
  unfold scanEntry
  by_cases h1 : e.flags &&& 1 > 0 ∧ e.original ≠ e.inStore
  · -- a forwarder
    rw [if_pos h1]
    left
    have hF : Forwards e := ⟨(flag1 e).mp h1.1, h1.2⟩
    have hO : ¬ IsOverlay e := fun hc => hk ⟨hF.1, hc⟩
    have hC : ¬ IsCopy e := fun hc => hc.1 hF
    have hOi : ∀ i, ¬ Overlays i e := fun i hc => hO hc.1
    refine ⟨_, rfl, ?_, ?_, ?_, fun i => ?_, h.empty, ?_, fun hne i hi => ?_⟩
    · rw [lastOf_snoc, if_pos hF]; rfl
    · rw [lastOf_snoc, if_neg hC]; exact h.regular
    · rw [lastOf_snoc, if_neg hO]; exact h.overlay
    · rw [lastOf_snoc, if_neg (hOi i)]; exact h.cumulative i
    · rw [lastOf_snoc, lastOf_snoc, if_neg hC, if_neg hO]; exact h.nothing
    · unfold scanned
      rw [lastOf_snoc, lastOf_snoc, if_neg hC, if_neg (hOi i)]
      exact h.sources hne i hi
  rw [if_neg h1]
  have hF : ¬ Forwards e := fun hc => h1 ⟨(flag1 e).mpr hc.1, hc.2⟩
  by_cases h2 : e.flags &&& 2 > 0
  · -- an overlay
    have hO : IsOverlay e := (flag2 e).mp h2
    have hC : ¬ IsCopy e := fun hc => hc.2 hO
    rw [if_pos h2]
    cases ignore with
    | true =>
      rw [if_pos rfl]
      left
      refine ⟨_, rfl, ?_, ?_, ?_, fun i => ?_, h.empty, ?_, fun hne i hi => ?_⟩
      · rw [lastOf_snoc, if_neg hF]; exact h.forward
      · rw [lastOf_snoc, if_neg hC]; exact h.regular
      · rw [lastOf_snoc, if_pos hO]; rfl
      · have := h.cumulative i
        simp only [Bool.not_true, Bool.false_and] at this ⊢
        exact this
      · rw [lastOf_snoc, if_neg hC]
        have := h.nothing
        simp only [true_or, and_true] at this ⊢
        exact this
      · have := h.sources hne i hi
        unfold scanned at this ⊢
        rw [lastOf_snoc (p := IsCopy), if_neg hC]
        exact this
    | false =>
      rw [if_neg (by decide)]
      -- the list after filling it
      have hfill : (∃ l, (if st.newOffsets.length = 0 then fillR else .ok st.newOffsets) = .ok l ∧ l.length = 32 ∧
            ∀ i, i < 32 → l[i]? = some (scanned p true fill i)) ∨
          ((if st.newOffsets.length = 0 then fillR else .ok st.newOffsets) = .error .ValueError ∧ ¬ good) := by
        by_cases hempty : st.newOffsets.length = 0
        · rw [if_pos hempty]
          have hnil := List.eq_nil_of_length_eq_zero hempty
          have hn := h.nothing.mp hnil
          rcases hf with ⟨l, a1, a2, a3⟩ | hf
          · refine .inl ⟨l, a1, a2, fun i hi => ?_⟩
            rw [a3 i hi]
            unfold scanned
            have hno : lastOf (Overlays i) p = none := by
              cases hc : lastOf (Overlays i) p with
              | none => rfl
              | some x =>
                rcases hn.2 with hn | hn
                · cases hn
                · exact absurd hn (overlays_isOverlay hc)
            rw [hn.1, hno]
            rfl
          · exact .inr hf
        · rw [if_neg hempty]
          rcases h.empty with he | he
          · rw [he] at hempty; exact absurd rfl hempty
          · exact .inl ⟨_, rfl, he, h.sources (fun hc => hempty (by rw [hc]; rfl))⟩
      rcases hfill with ⟨l, a1, a2, a3⟩ | ⟨a1, a2⟩
      · rw [a1]
        dsimp only
        obtain ⟨l', b1, b2, b3⟩ := overwrite_ok (sectorBit e.bitmap) (fun i => .ok (.store (e.dataBlock + i * 512)))
          (fun i => .store (e.dataBlock + i * 512)) l a2 (fun _ _ _ => rfl)
        rw [b1]
        left
        have hl' : l' ≠ [] := by intro hc; rw [hc] at b2; cases b2
        refine ⟨_, rfl, ?_, ?_, ?_, fun i => ?_, .inr b2, ?_, fun _ i hi => ?_⟩
        · rw [lastOf_snoc, if_neg hF]; exact h.forward
        · rw [lastOf_snoc, if_neg hC]; exact h.regular
        · rw [lastOf_snoc, if_pos hO]; rfl
        · show (st.cumulative ||| e.bitmap).testBit i = _
          rw [Nat.testBit_or, h.cumulative i, lastOf_snoc]
          simp only [Bool.not_false, Bool.true_and]
          by_cases hb : e.bitmap.testBit i = true
          · rw [if_pos (show Overlays i e from ⟨hO, hb⟩), hb]; simp
          · rw [if_neg (fun hc : Overlays i e => hb hc.2), Bool.not_eq_true _ |>.mp hb, Bool.or_false]
        · constructor
          · intro hc; exact absurd hc hl'
          · rintro ⟨-, hc | hc⟩
            · cases hc
            · rw [lastOf_snoc, if_pos hO] at hc; cases hc
        · show l'[i]? = _
          rw [b3 i hi, a3 i hi, sectorBit_eq]
          unfold scanned
          rw [lastOf_snoc, lastOf_snoc, if_neg hC]
          simp only [Bool.not_false, if_true]
          by_cases hb : e.bitmap.testBit i = true
          · rw [if_pos hb, if_pos (show Overlays i e from ⟨hO, hb⟩)]
          · rw [if_neg hb, if_neg (fun hc : Overlays i e => hb hc.2)]
      · rw [a1]
        exact .inr ⟨rfl, a2⟩
  · -- a copy
    rw [if_neg h2]
    have hO : ¬ IsOverlay e := fun hc => h2 ((flag2 e).mpr hc)
    have hC : IsCopy e := ⟨hF, hO⟩
    have hOi : ∀ i, ¬ Overlays i e := fun i hc => hO hc.1
    left
    -- whatever the new list is
    have finish : ∀ l, l.length = 32 → (∀ i, i < 32 → l[i]? = some (scanned (p ++ [e]) (!ignore) fill i)) →
        ScanInv (p ++ [e]) ignore fill { st with newOffsets := l, regular := true } := by
      intro l hl hs
      have hl' : l ≠ [] := by intro hc; rw [hc] at hl; cases hl
      refine ⟨?_, ?_, ?_, fun i => ?_, .inr hl, ?_, fun _ => hs⟩
      · rw [lastOf_snoc, if_neg hF]; exact h.forward
      · rw [lastOf_snoc, if_pos hC]; rfl
      · rw [lastOf_snoc, if_neg hO]; exact h.overlay
      · rw [lastOf_snoc, if_neg (hOi i)]; exact h.cumulative i
      · constructor
        · intro hc; exact absurd hc hl'
        · rintro ⟨hc, -⟩; rw [lastOf_snoc, if_pos hC] at hc; cases hc
    split
    · rename_i hempty
      have hnil := List.eq_nil_of_length_eq_zero hempty
      have hn := h.nothing.mp hnil
      obtain ⟨c1, c2⟩ := outcome_block e.dataBlock
      refine ⟨_, rfl, finish _ c1 (fun i hi => ?_)⟩
      rw [c2 i hi]
      unfold scanned
      rw [lastOf_snoc, lastOf_snoc, if_pos hC, if_neg (hOi i)]
      have hno : (if (!ignore) = true then lastOf (Overlays i) p else none) = none := by
        cases hig : ignore with
        | true => rfl
        | false =>
          cases hc : lastOf (Overlays i) p with
          | none => rfl
          | some x =>
            rcases hn.2 with hn | hn
            · rw [hig] at hn; cases hn
            · exact absurd hn (overlays_isOverlay hc)
      rw [hno]
    · rename_i hempty
      have h32 : st.newOffsets.length = 32 := by
        rcases h.empty with he | he
        · rw [he] at hempty; exact absurd rfl hempty
        · exact he
      have hs := h.sources (fun hc => hempty (by rw [hc]; rfl))
      obtain ⟨l', b1, b2, b3⟩ := overwrite_ok (fun i => !sectorBit st.cumulative i) (fun i => .ok (.store (e.dataBlock + i * 512)))
        (fun i => .store (e.dataBlock + i * 512)) st.newOffsets h32 (fun _ _ _ => rfl)
      rw [b1]
      refine ⟨_, rfl, finish _ b2 (fun i hi => ?_)⟩
      rw [b3 i hi, sectorBit_eq, h.cumulative i, hs i hi]
      unfold scanned
      rw [lastOf_snoc, lastOf_snoc, if_pos hC, if_neg (hOi i)]
      cases ignore with
      | true => rfl
      | false =>
        simp only [Bool.not_false, Bool.true_and, if_true]
        cases hc : lastOf (Overlays i) p with
        | none => rfl
        | some x => rfl

theorem scan_all (ignore : Bool) (fillR : Except Exc (List Source)) (fill : Nat → Source) (good : Prop)
    (hf : Outcome fillR fill good) (es p : List Entry) (hk : ∀ e ∈ es, ¬ (IsForwarder e ∧ IsOverlay e)) (st : Scan)
    (h : ScanInv p ignore fill st) :
    (∃ st', es.foldlM (scanEntry ignore fillR) st = .ok st' ∧ ScanInv (p ++ es) ignore fill st') ∨
    (es.foldlM (scanEntry ignore fillR) st = .error .ValueError ∧ ¬ good) := by
  induction es generalizing p st with
  | nil => exact .inl ⟨st, rfl, by rw [List.append_nil]; exact h⟩
  | cons e rest ih =>
    rw [List.foldlM_cons]
    rcases scan_step p e ignore fillR fill good hf (hk e (by simp)) st h with ⟨st', h1, h2⟩ | ⟨h1, h2⟩
    · rw [h1]
      have := ih (p ++ [e]) (fun e he => hk e (List.mem_cons_of_mem _ he)) st' h2
      rw [List.append_assoc] at this
      exact this
    · rw [h1]
      exact .inr ⟨rfl, h2⟩

theorem scan_start (ignore : Bool) (fill : Nat → Source) : ScanInv [] ignore fill ⟨[], 0, none, false, false⟩ := by
  refine ⟨rfl, rfl, rfl, fun i => ?_, .inl rfl, ?_, fun h => absurd rfl h⟩
  · simp [lastOf_nil]
  · simp [lastOf_nil]

end Verif.Props
