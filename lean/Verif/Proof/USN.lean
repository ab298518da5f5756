/-
Lemmas about change journals: acceptance of a record, and the scan as a greedy search.
-/
import Verif.Spec.USN
namespace Verif.USN
open Verif.Spec.USN

theorem recordV2or3_iff (raw : Bytes) (v3 : Bool) (r : Record) : recordV2or3 raw v3 = .ok r ↔
    (if v3 then 78 else 62) ≤ raw.length ∧ 8 ≤ leNat (slice raw 0 4) ∧ leNat (slice raw 0 4) % 8 = 0 ∧
    leNat (slice raw 0 4) ≤ raw.length ∧ leNat (slice raw 4 6) = (if v3 then 3 else 2) ∧ r = .v2or3 v3 raw := by
  unfold recordV2or3
  have e0 : u32 raw 0 = leNat (slice raw 0 4) := rfl
  have e4 : u16 raw 4 = leNat (slice raw 4 6) := rfl
  rw [e0, e4]
  constructor
  · intro h
    obtain ⟨c1, h⟩ := of_ite_error h
    obtain ⟨c2, h⟩ := of_ite_error h
    obtain ⟨c3, h⟩ := of_ite_error h
    obtain ⟨c4, h⟩ := of_ite_error h
    obtain ⟨c5, h⟩ := of_ite_error h
    obtain ⟨c6, h⟩ := of_ite_error h
    cases h
    cases v3 <;> simp_all <;> omega
  · rintro ⟨h1, h2, h3, h4, h5, rfl⟩
    cases v3
    · simp only [Bool.false_eq_true, if_false] at h1 h5
      rw [if_neg (fun h => by omega), if_neg (fun h => by cases h.1), if_neg (by omega), if_neg (by omega),
        if_neg (fun h => by cases h.1), if_neg (fun h => h.2 h5)]
    · simp only [if_true] at h1 h5
      rw [if_neg (fun h => by cases h.1), if_neg (fun h => by omega), if_neg (by omega), if_neg (by omega),
        if_neg (fun h => h.2 h5), if_neg (fun h => by cases h.1)]

theorem recordV4_iff (raw : Bytes) (r : Record) : recordV4 raw = .ok r ↔
    80 ≤ raw.length ∧ 8 ≤ leNat (slice raw 0 4) ∧ leNat (slice raw 0 4) % 8 = 0 ∧
    leNat (slice raw 0 4) ≤ raw.length ∧ leNat (slice raw 4 6) = 4 ∧ r = .v4 raw := by
  unfold recordV4
  have e0 : u32 raw 0 = leNat (slice raw 0 4) := rfl
  have e4 : u16 raw 4 = leNat (slice raw 4 6) := rfl
  rw [e0, e4]
  constructor
  · intro h
    obtain ⟨c1, h⟩ := of_ite_error h
    obtain ⟨c3, h⟩ := of_ite_error h
    obtain ⟨c4, h⟩ := of_ite_error h
    obtain ⟨c5, h⟩ := of_ite_error h
    cases h
    exact ⟨by omega, by omega, by omega, by omega, by omega, rfl⟩
  · rintro ⟨h1, h2, h3, h4, h5, rfl⟩
    rw [if_neg (by omega), if_neg (by omega), if_neg (by omega), if_neg (by omega)]

/-- A buffer is accepted exactly when it begins with a valid record. -/
theorem getUsnRecord_iff (buf : Bytes) (r : Record) : getUsnRecord buf = .ok r ↔
    ∃ n, n ≤ buf.length ∧ ValidRecord (buf.take n) ∧ r = recordOf (buf.take n) := by
  have e0 : u32 buf 0 = leNat (slice buf 0 4) := rfl
  have e4 : u16 buf 4 = leNat (slice buf 4 6) := rfl
  have s0 : ∀ n, 6 ≤ n → slice (slice buf 0 n) 0 4 = slice buf 0 4 := fun n hn => slice_slice _ _ _ _ _ (by omega)
  have s4 : ∀ n, 6 ≤ n → slice (slice buf 0 n) 4 6 = slice buf 4 6 := fun n hn => slice_slice _ _ _ _ _ (by omega)
  have sl : ∀ n, (slice buf 0 n).length = min n buf.length := fun n => by rw [slice_length]; rfl
  unfold getUsnRecord
  rw [e0, e4]
  constructor
  · intro h
    obtain ⟨c1, h⟩ := of_ite_error h
    obtain ⟨c2, h⟩ := of_ite_error h
    generalize hL : leNat (slice buf 0 4) = L at *
    have t0 := s0 L (by omega)
    have t4 := s4 L (by omega)
    have tl := sl L
    refine ⟨L, ?_⟩
    rw [← slice_zero]
    by_cases c3 : leNat (slice buf 4 6) = 2
    · rw [if_pos c3] at h
      obtain ⟨h1, h2, h3, h4, h5, rfl⟩ := (recordV2or3_iff _ _ _).1 h
      simp only [Bool.false_eq_true, if_false] at h1 h5
      rw [t0, hL] at h2 h3 h4
      refine ⟨by omega, ⟨by rw [t0, hL]; omega, by omega, .inl ⟨h5, h1⟩⟩, ?_⟩
      unfold recordOf; rw [h5]; rfl
    rw [if_neg c3] at h
    by_cases c4 : leNat (slice buf 4 6) = 3
    · rw [if_pos c4] at h
      obtain ⟨h1, h2, h3, h4, h5, rfl⟩ := (recordV2or3_iff _ _ _).1 h
      simp only [if_true] at h1 h5
      rw [t0, hL] at h2 h3 h4
      refine ⟨by omega, ⟨by rw [t0, hL]; omega, by omega, .inr (.inl ⟨h5, h1⟩)⟩, ?_⟩
      unfold recordOf; rw [h5]; rfl
    rw [if_neg c4] at h
    by_cases c5 : leNat (slice buf 4 6) = 4
    · rw [if_pos c5] at h
      obtain ⟨h1, h2, h3, h4, h5, rfl⟩ := (recordV4_iff _ _).1 h
      rw [t0, hL] at h2 h3 h4
      refine ⟨by omega, ⟨by rw [t0, hL]; omega, by omega, .inr (.inr ⟨h5, h1⟩)⟩, ?_⟩
      unfold recordOf; rw [h5]; rfl
    rw [if_neg c5] at h
    cases h
  · rintro ⟨n, hn, hv, rfl⟩
    rw [← slice_zero] at hv ⊢
    obtain ⟨v1, v2, v3⟩ := hv
    rw [sl] at v1 v2 v3
    have t0 := s0 n (by omega)
    have t4 := s4 n (by omega)
    rw [t0] at v1
    rw [t4] at v3
    have hL : leNat (slice buf 0 4) = n := by omega
    rw [if_neg (by omega), if_neg (by omega), hL]
    unfold recordOf
    rw [t4]
    rcases v3 with ⟨v3, v4⟩ | ⟨v3, v4⟩ | ⟨v3, v4⟩
    · rw [if_pos v3, if_pos v3, recordV2or3_iff, t0, t4, hL, sl]
      exact ⟨by simp; omega, by omega, by omega, by omega, v3, rfl⟩
    · rw [if_neg (by omega), if_pos v3, if_neg (by omega), if_pos v3, recordV2or3_iff, t0, t4, hL, sl]
      exact ⟨by simp; omega, by omega, by omega, by omega, v3, rfl⟩
    · rw [if_neg (by omega), if_neg (by omega), if_pos v3, if_neg (by omega), if_neg (by omega), recordV4_iff, t0, t4, hL, sl]
      exact ⟨by omega, by omega, by omega, by omega, v3, rfl⟩

theorem recordV2or3_error {raw : Bytes} {v3 : Bool} {e : Exc} (h : recordV2or3 raw v3 = .error e) : e = .ValueError := by
  unfold recordV2or3 at h
  rcases error_of_ite h with ⟨-, rfl⟩ | ⟨-, h⟩
  · rfl
  rcases error_of_ite h with ⟨-, rfl⟩ | ⟨-, h⟩
  · rfl
  rcases error_of_ite h with ⟨-, rfl⟩ | ⟨-, h⟩
  · rfl
  rcases error_of_ite h with ⟨-, rfl⟩ | ⟨-, h⟩
  · rfl
  rcases error_of_ite h with ⟨-, rfl⟩ | ⟨-, h⟩
  · rfl
  rcases error_of_ite h with ⟨-, rfl⟩ | ⟨-, h⟩
  · rfl
  cases h

theorem recordV4_error {raw : Bytes} {e : Exc} (h : recordV4 raw = .error e) : e = .ValueError := by
  unfold recordV4 at h
  rcases error_of_ite h with ⟨-, rfl⟩ | ⟨-, h⟩
  · rfl
  rcases error_of_ite h with ⟨-, rfl⟩ | ⟨-, h⟩
  · rfl
  rcases error_of_ite h with ⟨-, rfl⟩ | ⟨-, h⟩
  · rfl
  rcases error_of_ite h with ⟨-, rfl⟩ | ⟨-, h⟩
  · rfl
  cases h

theorem getUsnRecord_error {buf : Bytes} {e : Exc} (h : getUsnRecord buf = .error e) : e = .ValueError ∨ e = .NotImplementedError := by
  unfold getUsnRecord at h
  rcases error_of_ite h with ⟨-, rfl⟩ | ⟨-, h⟩
  · exact .inl rfl
  rcases error_of_ite h with ⟨-, rfl⟩ | ⟨-, h⟩
  · exact .inl rfl
  split at h
  · exact .inl (recordV2or3_error h)
  · split at h
    · exact .inl (recordV2or3_error h)
    · split at h
      · exact .inl (recordV4_error h)
      · cases h; exact .inr rfl

theorem recordOf_raw (b : Bytes) : (recordOf b).raw = b := by
  unfold recordOf; split
  · rfl
  · split <;> rfl

/-- The record at a position. -/
def recAt (file : Bytes) (pos : Nat) : Option Record :=
  match getUsnRecord (slice file pos (pos + 8192)) with
  | .ok r => some r
  | .error _ => none

theorem _root_.Verif.Spec.USN.ValidRecord.ge {b : Bytes} (h : ValidRecord b) : 62 ≤ b.length := by
  rcases h.version with h | h | h <;> omega

theorem take_slice (b : Bytes) (i j n : Nat) (h : n ≤ (slice b i j).length) : (slice b i j).take n = slice b i (i + n) := by
  rw [slice_length] at h
  have : slice (slice b i j) 0 n = slice b i (i + n) := by
    by_cases hn : n = 0
    · subst hn; rw [slice_eq_nil_of_le (by omega), slice_eq_nil_of_le (by omega)]
    · rw [slice_slice _ _ _ _ _ (by omega)]; rfl
  rwa [slice_zero] at this

theorem recAt_some {file : Bytes} {pos : Nat} {r : Record} :
    recAt file pos = some r ↔ ∃ n, RecordAt file pos n ∧ r = recordOf (slice file pos (pos + n)) := by
  have h1 : recAt file pos = some r ↔ getUsnRecord (slice file pos (pos + 8192)) = .ok r := by
    unfold recAt
    cases getUsnRecord (slice file pos (pos + 8192)) <;> simp
  rw [h1, getUsnRecord_iff]
  constructor
  · rintro ⟨n, h1, h2, h3⟩
    rw [take_slice _ _ _ _ h1] at h2 h3
    rw [slice_length] at h1
    have := h2.ge
    rw [slice_length] at this
    exact ⟨n, ⟨by omega, by omega, h2⟩, h3⟩
  · rintro ⟨n, ⟨h1, h2, h3⟩, h4⟩
    have hl : n ≤ (slice file pos (pos + 8192)).length := by rw [slice_length]; omega
    exact ⟨n, hl, by rw [take_slice _ _ _ _ hl]; exact h3, by rw [take_slice _ _ _ _ hl]; exact h4⟩

theorem recAt_facts {file : Bytes} {pos : Nat} {r : Record} (h : recAt file pos = some r) :
    RecordAt file pos r.raw.length ∧ r.raw = slice file pos (pos + r.raw.length) ∧ r = recordOf r.raw ∧ 62 ≤ r.raw.length ∧
      8 ∣ r.raw.length ∧ r.length = .ok r.raw.length := by
  obtain ⟨n, hn, rfl⟩ := recAt_some.1 h
  have hn' := hn
  obtain ⟨h1, h2, h3⟩ := hn'
  have hge := h3.ge
  have hl : (slice file pos (pos + n)).length = n := by rw [slice_length]; omega
  rw [recordOf_raw, hl]
  refine ⟨hn, rfl, rfl, by omega, by have := h3.aligned; omega, ?_⟩
  unfold Record.length
  rw [recordOf_raw]
  unfold unpackLE
  rw [if_pos (by rw [slice_length]; omega), h3.length, hl]

/-- The scan without the shortcut for empty chunks. -/
def greedy (file : Bytes) (pos : Nat) : List (Nat × Record) :=
  if pos < file.length then
    match recAt file pos with
    | some r => (pos, r) :: greedy file (pos + (r.raw.length - 1) + 1)
    | none => greedy file (pos + 8)
  else []
termination_by file.length - pos

theorem recAt_zero {file : Bytes} {pos : Nat} (h : slice file pos (pos + 4) = zeros 4) : recAt file pos = none := by
  cases hr : recAt file pos with
  | none => rfl
  | some r =>
    exfalso
    obtain ⟨n, ⟨h1, h2, h3⟩, -⟩ := recAt_some.1 hr
    have hge := h3.ge
    have hl : (slice file pos (pos + n)).length = n := by rw [slice_length]; omega
    have h4 := h3.length
    rw [slice_slice _ _ _ _ _ (by omega), hl] at h4
    rw [Nat.add_zero, h] at h4
    have : leNat (zeros 4) = 0 := by decide
    omega

/-- The greedy search walks over zero bytes. -/
theorem greedy_zeros (file : Bytes) : ∀ (k pos : Nat), pos + 8 * k ≤ file.length → (∀ p, pos ≤ p → p < pos + 8 * k → file[p]? = some 0) →
    greedy file pos = greedy file (pos + 8 * k)
  | 0, pos, _, _ => rfl
  | k + 1, pos, hl, hz => by
    rw [greedy, if_pos (by omega), recAt_zero (by
      apply List.ext_getElem?
      intro n
      rw [slice_getElem?]
      by_cases hn : n < 4
      · rw [if_pos (by omega), hz _ (by omega) (by omega)]
        show some 0 = (List.replicate 4 0)[n]?
        rw [List.getElem?_replicate, if_pos hn]
      · rw [if_neg (by omega)]; simp [zeros, hn])]
    dsimp only
    rw [greedy_zeros file k (pos + 8) (by omega) (fun p h1 h2 => hz p (by omega) (by omega))]
    congr 1; omega

theorem greedy_end (file : Bytes) (pos : Nat) (hz : ∀ p, pos ≤ p → p < file.length → file[p]? = some 0) : greedy file pos = [] := by
  by_cases hlt : pos + 62 ≤ file.length
  · rw [greedy_zeros file ((file.length - pos) / 8) pos (by omega) (fun p h1 h2 => hz p h1 (by omega))]
    have hr : ∀ q, file.length < q + 62 → greedy file q = [] := by
      intro q hq
      have : ∀ n q, n = file.length - q → file.length < q + 62 → greedy file q = [] := by
        intro n
        induction n using Nat.strongRecOn with
        | ind n ih =>
          intro q hn hq
          rw [greedy]
          split
          · have : recAt file q = none := by
              cases hr : recAt file q with
              | none => rfl
              | some r =>
                obtain ⟨⟨-, h2, -⟩, -, -, h4, -⟩ := recAt_facts hr
                omega
            rw [this]
            exact ih (file.length - (q + 8)) (by omega) (q + 8) rfl (by omega)
          · rfl
      exact this _ q rfl hq
    exact hr _ (by omega)
  · have : ∀ n q, n = file.length - q → file.length < q + 62 → greedy file q = [] := by
      intro n
      induction n using Nat.strongRecOn with
      | ind n ih =>
        intro q hn hq
        rw [greedy]
        split
        · have : recAt file q = none := by
            cases hr : recAt file q with
            | none => rfl
            | some r =>
              obtain ⟨⟨-, h2, -⟩, -, -, h4, -⟩ := recAt_facts hr
              omega
          rw [this]
          exact ih (file.length - (q + 8)) (by omega) (q + 8) rfl (by omega)
        · rfl
    exact this _ pos rfl (by omega)

/-- The scan is the greedy search, ends, and raises nothing. -/
theorem usnRecordsLoop_eq (file : Bytes) : ∀ (fuel pos : Nat), file.length - pos < fuel → 8 ∣ pos ∨ file.length ≤ pos →
    usnRecordsLoop file fuel pos = some ⟨greedy file pos, none⟩
  | 0, _, h, _ => by omega
  | fuel + 1, pos, hf, ha => by
    unfold usnRecordsLoop
    by_cases hlt : pos < file.length
    · rw [if_pos hlt]
      dsimp only
      have hl := slice_length file pos (pos + 8192)
      by_cases hz : (slice file pos (pos + 8192)).all (· == 0) = true
      · rw [if_pos hz, usnRecordsLoop_eq file fuel _ (by omega) (by omega)]
        have hz' : ∀ p, pos ≤ p → p < pos + 8192 → p < file.length → file[p]? = some 0 := by
          intro p h1 h2 h3
          have hp : (slice file pos (pos + 8192))[p - pos]? = file[p]? := by
            rw [slice_getElem?, if_pos (by omega)]; congr 1; omega
          have hm : file[p] ∈ slice file pos (pos + 8192) := by
            apply List.mem_of_getElem? (i := p - pos)
            rw [hp, List.getElem?_eq_getElem h3]
          have := List.all_eq_true.1 hz _ hm
          rw [List.getElem?_eq_getElem h3]
          simpa using this
        congr 2
        by_cases hb : pos + 8192 ≤ file.length
        · rw [greedy_zeros file 1024 pos (by omega) (fun p h1 h2 => hz' p h1 (by omega) (by omega))]
          congr 1; omega
        · rw [greedy_end file pos (fun p h1 h2 => hz' p h1 (by omega) h2), greedy, if_neg (by omega)]
      · rw [if_neg hz]
        have hal : (if pos + (slice file pos (pos + 8192)).length - (slice file pos (pos + 8192)).length = 0 ∨
            (pos + (slice file pos (pos + 8192)).length - (slice file pos (pos + 8192)).length) % 8 = 0 then
            pos + (slice file pos (pos + 8192)).length - (slice file pos (pos + 8192)).length else
            pos + (slice file pos (pos + 8192)).length - (slice file pos (pos + 8192)).length -
            (pos + (slice file pos (pos + 8192)).length - (slice file pos (pos + 8192)).length) % 8) = pos := by
          rw [Nat.add_sub_cancel, if_pos (by omega)]
        rw [hal]
        cases hg : getUsnRecord (slice file pos (pos + 8192)) with
        | error e =>
          have hn : recAt file pos = none := by unfold recAt; rw [hg]
          have hgr : greedy file pos = greedy file (pos + 8) := by
            rw [greedy, if_pos hlt, hn]
          have hrec := usnRecordsLoop_eq file fuel (pos + 8) (by omega) (by omega)
          rcases getUsnRecord_error hg with rfl | rfl
          · dsimp only; rw [hrec, hgr]
          · dsimp only; rw [hrec, hgr]
        | ok r =>
          have hs : recAt file pos = some r := by unfold recAt; rw [hg]
          obtain ⟨f1, f2, f3, f4, f5, f6⟩ := recAt_facts hs
          have hgr : greedy file pos = (pos, r) :: greedy file (pos + r.raw.length) := by
            rw [greedy.eq_def file pos, if_pos hlt, hs]
            dsimp only
            rw [show pos + (r.raw.length - 1) + 1 = pos + r.raw.length by omega]
          dsimp only
          rw [f6]
          dsimp only
          rw [usnRecordsLoop_eq file fuel (pos + r.raw.length) (by omega) (by omega), hgr]
          rfl
    · rw [if_neg hlt, greedy, if_neg hlt]; rfl

theorem usnRecords_eq (file : Bytes) : usnRecords file = some ⟨greedy file 0, none⟩ :=
  usnRecordsLoop_eq file _ 0 (by omega) (.inl (by simp))

theorem greedy_sound (file : Bytes) (pos : Nat) (ha : 8 ∣ pos) :
    (∀ x ∈ greedy file pos, pos ≤ x.1 ∧ 8 ∣ x.1 ∧ recAt file x.1 = some x.2) ∧
    (greedy file pos).Pairwise (fun a b => a.1 + a.2.raw.length ≤ b.1) ∧
    (∀ p, pos ≤ p → 8 ∣ p → (recAt file p).isSome → ∃ x ∈ greedy file pos, x.1 ≤ p ∧ p < x.1 + x.2.raw.length) := by
  fun_induction greedy file pos with
  | case1 pos hlt r hr ih =>
    obtain ⟨f1, f2, f3, f4, f5, f6⟩ := recAt_facts hr
    obtain ⟨i1, i2, i3⟩ := ih (by omega)
    refine ⟨?_, ?_, ?_⟩
    · intro x hx
      rcases List.mem_cons.1 hx with rfl | hx
      · exact ⟨Nat.le_refl _, ha, hr⟩
      · obtain ⟨a1, a2, a3⟩ := i1 x hx
        exact ⟨by omega, a2, a3⟩
    · refine List.pairwise_cons.2 ⟨fun x hx => ?_, i2⟩
      have := (i1 x hx).1
      dsimp only; omega
    · intro p hp hp8 hs
      by_cases hin : p < pos + r.raw.length
      · exact ⟨_, List.mem_cons_self .., hp, hin⟩
      · obtain ⟨x, x1, x2⟩ := i3 p (by omega) hp8 hs
        exact ⟨x, List.mem_cons_of_mem _ x1, x2⟩
  | case2 pos hlt hr ih =>
    obtain ⟨i1, i2, i3⟩ := ih (by omega)
    refine ⟨fun x hx => ?_, i2, ?_⟩
    · obtain ⟨a1, a2, a3⟩ := i1 x hx
      exact ⟨by omega, a2, a3⟩
    · intro p hp hp8 hs
      by_cases he : p = pos
      · subst he; rw [hr] at hs; cases hs
      · exact i3 p (by omega) hp8 hs
  | case3 pos hlt =>
    refine ⟨by simp, by simp, ?_⟩
    intro p hp hp8 hs
    cases hr : recAt file p with
    | none => rw [hr] at hs; cases hs
    | some r =>
      obtain ⟨⟨-, h2, -⟩, -, -, h4, -⟩ := recAt_facts hr
      omega

end Verif.USN
