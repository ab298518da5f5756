/-
Properties C28-C31: change journals.
-/
import Verif.Proof.USN
import Verif.Props.C22_C24
import Verif.Basic.Bits
namespace Verif.Props
open Verif.USN Verif.Spec.USN

/-! ### C28, C29: the scan -/

/-- C28: bytes that are not a record are rejected with `ValueError`, or with `NotImplementedError` exactly
when there is a header with an unknown version. -/
theorem C28_rejections (buf : Bytes) (e : Exc) (h : USN.getUsnRecord buf = .error e) :
    (e = .NotImplementedError ∧ 8 ≤ buf.length ∧ 8 ≤ leNat (slice buf 0 4) ∧
      leNat (slice buf 4 6) ≠ 2 ∧ leNat (slice buf 4 6) ≠ 3 ∧ leNat (slice buf 4 6) ≠ 4) ∨
    (e = .ValueError ∧ (buf.length < 8 ∨ leNat (slice buf 0 4) < 8 ∨
      leNat (slice buf 4 6) = 2 ∨ leNat (slice buf 4 6) = 3 ∨ leNat (slice buf 4 6) = 4)) := by
  have h23 : ∀ {raw v3}, USN.recordV2or3 raw v3 = .error e → e = .ValueError := by
    intro raw v3 h
    unfold USN.recordV2or3 at h
    dsimp only at h
    rcases error_of_ite h with h | ⟨-, h⟩
    · exact h
    rcases error_of_ite h with h | ⟨-, h⟩
    · exact h
    rcases error_of_ite h with h | ⟨-, h⟩
    · exact h
    rcases error_of_ite h with h | ⟨-, h⟩
    · exact h
    rcases error_of_ite h with h | ⟨-, h⟩
    · exact h
    rcases error_of_ite h with h | ⟨-, h⟩
    · exact h
    · cases h
  have h4 : ∀ {raw}, USN.recordV4 raw = .error e → e = .ValueError := by
    intro raw h
    unfold USN.recordV4 at h
    dsimp only at h
    rcases error_of_ite h with h | ⟨-, h⟩
    · exact h
    rcases error_of_ite h with h | ⟨-, h⟩
    · exact h
    rcases error_of_ite h with h | ⟨-, h⟩
    · exact h
    rcases error_of_ite h with h | ⟨-, h⟩
    · exact h
    · cases h
  unfold USN.getUsnRecord at h
  dsimp only at h
  have e0 : u32 buf 0 = leNat (slice buf 0 4) := rfl
  have e4 : u16 buf 4 = leNat (slice buf 4 6) := rfl
  rw [e0, e4] at h
  split at h
  · cases h; exact .inr ⟨rfl, .inl (by assumption)⟩
  split at h
  · cases h; exact .inr ⟨rfl, .inr (.inl (by assumption))⟩
  split at h
  · rename_i h2; exact .inr ⟨h23 h, .inr (.inr (.inl h2))⟩
  split at h
  · rename_i h2; exact .inr ⟨h23 h, .inr (.inr (.inr (.inl h2)))⟩
  split at h
  · rename_i h2; exact .inr ⟨h4 h, .inr (.inr (.inr (.inr h2)))⟩
  · cases h
    exact .inl ⟨rfl, by omega, by omega, by assumption, by assumption, by assumption⟩

/-- C28: scanning any file ends, without an error; each record found lies in the file at a multiple of
8, is made of the bytes there, and is valid; and the records do not overlap and come in order. -/
theorem C28_sound (file : Bytes) : ∃ g, usnRecords file = some g ∧ g.err = none ∧
    (∀ x ∈ g.items, 8 ∣ x.1 ∧ RecordAt file x.1 x.2.raw.length ∧ x.2.raw = slice file x.1 (x.1 + x.2.raw.length) ∧
      x.2 = recordOf x.2.raw) ∧
    g.items.Pairwise (fun a b => a.1 < b.1 ∧ a.1 + a.2.raw.length ≤ b.1) := by
  obtain ⟨h1, h2, -⟩ := greedy_sound file 0 (by simp)
  refine ⟨_, usnRecords_eq file, rfl, fun x hx => ?_, ?_⟩
  · obtain ⟨-, a2, a3⟩ := h1 x hx
    obtain ⟨f1, f2, f3, -⟩ := recAt_facts a3
    exact ⟨a2, f1, f2, f3⟩
  · have key : ∀ l : List (Nat × Record), (∀ x ∈ l, 0 < x.2.raw.length) → l.Pairwise (fun a b => a.1 + a.2.raw.length ≤ b.1) →
        l.Pairwise (fun a b => a.1 < b.1 ∧ a.1 + a.2.raw.length ≤ b.1) := by
      intro l hl hp
      induction hp with
      | nil => exact .nil
      | cons ha _ ih =>
        have h0 := hl _ (List.mem_cons_self ..)
        exact .cons (fun b hb => ⟨by have := ha b hb; omega, ha b hb⟩) (ih fun x hx => hl x (List.mem_cons_of_mem _ hx))
    exact key _ (fun x hx => by have := (recAt_facts (h1 x hx).2.2).2.2.2.1; omega) h2

/-- C29, for all files: no record at a multiple of 8 is missed, unless it begins inside another one that
was found. -/
theorem C29_nothing_missed (file : Bytes) (p n : Nat) (hp : 8 ∣ p) (hr : RecordAt file p n) :
    ∃ g, usnRecords file = some g ∧ ∃ x ∈ g.items, x.1 ≤ p ∧ p < x.1 + x.2.raw.length := by
  obtain ⟨-, -, h3⟩ := greedy_sound file 0 (by simp)
  refine ⟨_, usnRecords_eq file, h3 p (Nat.zero_le _) hp ?_⟩
  rw [recAt_some.2 ⟨n, hr, rfl⟩]; rfl

/-- A journal as it is written: zero bytes, eight at a time, and records. -/
inductive Piece where
  | hole (eights : Nat)
  | record (b : Bytes)

/-- The bytes of a journal. -/
def render : List Piece → Bytes
  | [] => []
  | .hole k :: rest => zeros (8 * k) ++ render rest
  | .record b :: rest => b ++ render rest

/-- The records of a journal that begins at `pos`, with their positions. -/
def recordsOf : Nat → List Piece → List (Nat × Record)
  | _, [] => []
  | pos, .hole k :: rest => recordsOf (pos + 8 * k) rest
  | pos, .record b :: rest => (pos, recordOf b) :: recordsOf (pos + b.length) rest

/-- Every record is valid and has at most 8192 bytes. -/
def WellFormed (ps : List Piece) : Prop := ∀ b, Piece.record b ∈ ps → ValidRecord b ∧ b.length ≤ 8192

theorem greedy_render : ∀ (ps : List Piece) (pre : Bytes), WellFormed ps →
    greedy (pre ++ render ps) pre.length = recordsOf pre.length ps
  | [], pre, _ => by
    rw [greedy, if_neg (by simp [render])]; rfl
  | .hole k :: rest, pre, h => by
    have hl : (pre ++ zeros (8 * k)).length = pre.length + 8 * k := by rw [List.length_append, zeros_length]
    have ih := greedy_render rest (pre ++ zeros (8 * k)) (fun b hb => h b (List.mem_cons_of_mem _ hb))
    rw [hl, List.append_assoc] at ih
    show greedy (pre ++ (zeros (8 * k) ++ render rest)) pre.length = recordsOf (pre.length + 8 * k) rest
    rw [← ih]
    apply greedy_zeros
    · simp only [List.length_append, zeros_length]; omega
    · intro p h1 h2
      rw [List.getElem?_append_right h1, List.getElem?_append_left (by rw [zeros_length]; omega)]
      unfold zeros
      rw [List.getElem?_replicate, if_pos (by omega)]
  | .record b :: rest, pre, h => by
    obtain ⟨hv, hb⟩ := h b (List.mem_cons_self ..)
    have hl : (pre ++ b).length = pre.length + b.length := List.length_append ..
    have ih := greedy_render rest (pre ++ b) (fun b hb => h b (List.mem_cons_of_mem _ hb))
    rw [hl, List.append_assoc] at ih
    have hge := hv.ge
    have hs : slice (pre ++ (b ++ render rest)) pre.length (pre.length + b.length) = b := by
      rw [← List.append_assoc]; exact slice_mid _ _ _ _ _ rfl rfl
    have hr : recAt (pre ++ (b ++ render rest)) pre.length = some (recordOf b) :=
      recAt_some.2 ⟨b.length, ⟨hb, by simp only [List.length_append]; omega, by rw [hs]; exact hv⟩, by rw [hs]⟩
    show greedy (pre ++ (b ++ render rest)) pre.length = (pre.length, recordOf b) :: recordsOf (pre.length + b.length) rest
    rw [greedy.eq_def, if_pos (by simp only [List.length_append]; omega), hr, ← ih]
    dsimp only
    rw [recordOf_raw, show pre.length + (b.length - 1) + 1 = pre.length + b.length by omega]

/-- C29: for a journal made of zero bytes and valid records, exactly these records are found, in order. -/
theorem C29_exact (ps : List Piece) (h : WellFormed ps) : usnRecords (render ps) = some ⟨recordsOf 0 ps, none⟩ := by
  have := greedy_render ps [] h
  rw [usnRecords_eq]
  exact congrArg (fun l => some (Gen.mk l none)) this

/-- A version 2 record of 64 bytes with the name "a". -/
def record64 : Bytes := natLE 4 64 ++ natLE 2 2 ++ zeros 34 ++ natLE 4 0x100 ++ zeros 12 ++ natLE 2 2 ++ natLE 2 60 ++ natLE 4 0x61

theorem record64_valid : ValidRecord record64 := ⟨by decide +kernel, by decide +kernel, .inl ⟨by decide +kernel, by decide +kernel⟩⟩

/-- Not vacuous: a journal with holes and two records. -/
example : WellFormed [.hole 512, .record record64, .hole 1, .record record64, .hole 2000] := by
  intro b hb
  simp only [List.mem_cons, Piece.record.injEq, reduceCtorEq, List.not_mem_nil, or_false, false_or] at hb
  have : b = record64 := by rcases hb with h | h <;> exact h
  subst this
  exact ⟨record64_valid, by decide +kernel⟩

/-- The bound of 8192 bytes in C29 is needed: a valid record of 8200 bytes (which the code that builds a
record accepts) is not found. -/
def record8200 : Bytes := natLE 4 8200 ++ natLE 2 2 ++ zeros 8194

theorem C29_large_record_missed : ValidRecord record8200 ∧ (getUsnRecord record8200).toOption = some (.v2or3 false record8200) ∧
    usnRecords record8200 = some ⟨[], none⟩ := by
  have hv : ValidRecord record8200 := ⟨by decide +kernel, by decide +kernel, .inl ⟨by decide +kernel, by decide +kernel⟩⟩
  refine ⟨hv, ?_, ?_⟩
  · have hl : record8200.length = 8200 := by decide +kernel
    have : getUsnRecord record8200 = .ok (.v2or3 false record8200) := by
      refine (getUsnRecord_iff _ _).2 ⟨8200, by omega, ?_, ?_⟩
      · rw [List.take_of_length_le (by omega)]; exact hv
      · rw [List.take_of_length_le (by omega)]
        unfold recordOf
        rw [if_pos (by decide +kernel)]
    rw [this]; rfl
  · have hl : record8200.length = 8200 := by decide +kernel
    have h0 : recAt record8200 0 = none := by
      cases hr : recAt record8200 0 with
      | none => rfl
      | some r =>
        exfalso
        obtain ⟨n, ⟨h1, h2, h3⟩, -⟩ := recAt_some.1 hr
        have hge := h3.ge
        have hlen : (slice record8200 0 (0 + n)).length = n := by rw [slice_length]; omega
        have := h3.length
        rw [slice_slice _ _ _ _ _ (by omega), hlen] at this
        have e : leNat (slice record8200 (0 + 0) (0 + 4)) = 8200 := by decide +kernel
        omega
    have hz : ∀ p, 8 ≤ p → p < record8200.length → record8200[p]? = some 0 := by
      intro p h1 h2
      rw [hl] at h2
      unfold record8200
      rw [List.getElem?_append_right (by rw [List.length_append, natLE_length, natLE_length]; omega)]
      unfold zeros
      rw [List.getElem?_replicate, if_pos (by rw [List.length_append, natLE_length, natLE_length]; omega)]
    rw [usnRecords_eq, greedy.eq_def, if_pos (by omega), h0]
    dsimp only
    rw [greedy_end _ _ (fun p h1 h2 => hz p (by omega) h2)]

/-! ### C30: reasons and sources -/

theorem testBit_sub_two_pow (left b i : Nat) (h : left.testBit b = true) :
    (left - 2 ^ b).testBit i = (left.testBit i && i != b) := by
  have hp := Nat.two_pow_pos b
  have e1 := Nat.div_add_mod left (2 ^ b)
  have hlt := Nat.mod_lt left hp
  have hodd : left / 2 ^ b % 2 = 1 := by
    have := Nat.testBit_eq_decide_div_mod_eq (x := left) (i := b)
    rw [h] at this
    simpa using this.symm
  generalize hr : left % 2 ^ b = r at *
  generalize hd : left / 2 ^ b = d at *
  obtain ⟨q, rfl⟩ : ∃ q, d = 2 * q + 1 := ⟨d / 2, by omega⟩
  have e2 : left - 2 ^ b = 2 ^ b * (2 * q) + r := by rw [Nat.mul_add] at e1; omega
  rw [e2, ← e1, Nat.testBit_two_pow_mul_add _ hlt, Nat.testBit_two_pow_mul_add _ hlt]
  by_cases hi : i < b
  · rw [if_pos hi, if_pos hi]
    have : (i != b) = true := by simp; omega
    rw [this, Bool.and_true]
  · rw [if_neg hi, if_neg hi]
    by_cases hib : i = b
    · subst hib; simp
    · obtain ⟨k, hk⟩ : ∃ k, i - b = k + 1 := ⟨i - b - 1, by omega⟩
      have hne : (i != b) = true := by simp [hib]
      rw [hk, hne, Bool.and_true, Nat.testBit_succ, Nat.testBit_succ]
      congr 1; omega

/-- The loop over the flags: the names of the flags that are set, and the other bits. -/
theorem resolveLoop_eq (codes : Nat) : ∀ (tab : List (Nat × String)) (names : List Str) (left : Nat),
    (tab.map (·.1)).Nodup → (∀ p ∈ tab, left.testBit p.1 = codes.testBit p.1) →
    ∃ left', resolveLoop codes (tab.map fun p => (2 ^ p.1, Str.ofString p.2)) (names, left) =
      (names ++ (tab.filter fun p => codes.testBit p.1).map (fun p => Str.ofString p.2), left') ∧
      ∀ i, left'.testBit i = (left.testBit i && decide (i ∉ tab.map (·.1)))
  | [], names, left, _, _ => ⟨left, by simp [resolveLoop], by simp⟩
  | (b, nm) :: tab, names, left, hnd, hb => by
    have hnd' := List.nodup_cons.1 (show (b :: tab.map (·.1)).Nodup from hnd)
    have hb0 : left.testBit b = codes.testBit b := hb _ (List.mem_cons_self ..)
    show ∃ left', resolveLoop codes ((2 ^ b, Str.ofString nm) :: tab.map fun p => (2 ^ p.1, Str.ofString p.2)) (names, left) = _ ∧ _
    by_cases hs : codes.testBit b = true
    · have hand : codes &&& 2 ^ b = 2 ^ b := by
        apply Nat.eq_of_testBit_eq
        intro i
        rw [Nat.testBit_and, Nat.testBit_two_pow]
        by_cases hib : b = i
        · subst hib; simp [hs]
        · simp [hib]
      have hpos := (and_two_pow_pos codes b).2 hs
      have hnot : ∀ p ∈ tab, p.1 ≠ b := fun p hp he => hnd'.1 (he ▸ List.mem_map.2 ⟨p, hp, rfl⟩)
      obtain ⟨left', h1, h2⟩ := resolveLoop_eq codes tab (names ++ [Str.ofString nm]) (left - 2 ^ b) hnd'.2 (by
        intro p hp
        rw [testBit_sub_two_pow _ _ _ (hb0.trans hs), hb p (List.mem_cons_of_mem _ hp)]
        have : (p.1 != b) = true := by simpa using hnot p hp
        rw [this, Bool.and_true])
      refine ⟨left', ?_, fun i => ?_⟩
      · rw [resolveLoop, if_pos hpos, hand, h1, List.filter_cons_of_pos (by simpa using hs)]
        simp
      · rw [h2, testBit_sub_two_pow _ _ _ (hb0.trans hs)]
        by_cases hib : i = b
        · subst hib; simp
        · have e : decide (i ∉ tab.map (·.1)) = decide (i ∉ ((b, nm) :: tab).map (·.1)) :=
            decide_eq_decide.2 (by rw [List.map_cons, List.mem_cons]; exact ⟨fun h h' => h'.elim hib h, fun h h' => h (.inr h')⟩)
          have e2 : (i != b) = true := bne_iff_ne.2 hib
          rw [e, e2, Bool.and_true]
    · have hpos : ¬ codes &&& 2 ^ b > 0 := fun h => hs ((and_two_pow_pos codes b).1 h)
      obtain ⟨left', h1, h2⟩ := resolveLoop_eq codes tab names left hnd'.2 (fun p hp => hb p (List.mem_cons_of_mem _ hp))
      refine ⟨left', ?_, fun i => ?_⟩
      · rw [resolveLoop, if_neg hpos, h1, List.filter_cons_of_neg (by simpa using hs)]
      · rw [h2]
        by_cases hib : i = b
        · subst hib
          have : left.testBit i = false := by rw [hb0]; simpa using hs
          simp [this]
        · have e : decide (i ∉ tab.map (·.1)) = decide (i ∉ ((b, nm) :: tab).map (·.1)) :=
            decide_eq_decide.2 (by rw [List.map_cons, List.mem_cons]; exact ⟨fun h h' => h'.elim hib h, fun h h' => h (.inr h')⟩)
          rw [e]

/-- The value of a hexadecimal digit. -/
def digitValue (c : Nat) : Nat := if c < 0x3A then c - 0x30 else c - 0x61 + 10

/-- The number that hexadecimal digits stand for, the lowest first. -/
def hexValue : List Nat → Nat
  | [] => 0
  | c :: rest => digitValue c + 16 * hexValue rest

theorem digitValue_hexDigit (d : Nat) (h : d < 16) : digitValue (hexDigit d) = d := by
  unfold digitValue hexDigit
  split <;> split <;> omega

theorem hexValue_hexDigits (n : Nat) : hexValue (hexDigits n) = n := by
  fun_induction hexDigits n with
  | case1 n h => rw [hexValue, hexValue, digitValue_hexDigit n h]; omega
  | case2 n h ih => rw [hexValue, ih, digitValue_hexDigit _ (by omega)]; omega

theorem hexDigits_mem (n : Nat) : ∀ c ∈ hexDigits n, (0x30 ≤ c ∧ c ≤ 0x39) ∨ (0x61 ≤ c ∧ c ≤ 0x66) := by
  have hd : ∀ d, d < 16 → (0x30 ≤ hexDigit d ∧ hexDigit d ≤ 0x39) ∨ (0x61 ≤ hexDigit d ∧ hexDigit d ≤ 0x66) := by
    intro d h; unfold hexDigit; split <;> omega
  fun_induction hexDigits n with
  | case1 n h => intro c hc; rw [List.mem_singleton.1 hc]; exact hd n h
  | case2 n h ih =>
    intro c hc
    rcases List.mem_cons.1 hc with rfl | hc
    · exact hd _ (by omega)
    · exact ih c hc

/-- The text of a number can be read back. -/
theorem pyHex_inj {a b : Nat} (h : pyHex a = pyHex b) : a = b := by
  unfold pyHex at h
  have := List.reverse_inj.1 (List.append_cancel_left h)
  rw [← hexValue_hexDigits a, this, hexValue_hexDigits]

/-- What C30 says about a table of documented flags: the text is made of the names of the flags that are
set, by bit number, and, when other bits are set, the hexadecimal number that has exactly them. -/
def Lossless (documented : List (Nat × String)) (resolve : Nat → Str) : Prop :=
  (∀ v, ∃ rest, (∀ i, rest.testBit i = (v.testBit i && decide (i ∉ documented.map (·.1)))) ∧
    resolve v = pyJoin (Str.ofString " | ") ((documented.filter fun p => v.testBit p.1).map (fun p => Str.ofString p.2) ++
      (if rest = 0 then [] else [pyHex rest]))) ∧
  (∀ v w, resolve v = resolve w → v = w)

theorem lossless_of (documented : List (Nat × String)) (tab : List (Nat × Str))
    (hs : sortBy (fun p => (p.1 : Int)) tab = documented.map fun p => (2 ^ p.1, Str.ofString p.2))
    (hnd : (documented.map (·.1)).Nodup)
    (hnames : ∀ p ∈ documented, (Str.ofString p.2).head? = some 0x55 ∧ 0x7C ∉ Str.ofString p.2)
    (hinj : ∀ p ∈ documented, ∀ q ∈ documented, Str.ofString p.2 = Str.ofString q.2 → p = q) :
    Lossless documented (resolveCodes tab) := by
  have main : ∀ v, ∃ rest, (∀ i, rest.testBit i = (v.testBit i && decide (i ∉ documented.map (·.1)))) ∧
    resolveCodes tab v = pyJoin (Str.ofString " | ") ((documented.filter fun p => v.testBit p.1).map (fun p => Str.ofString p.2) ++
      (if rest = 0 then [] else [pyHex rest])) := by
    intro v
    obtain ⟨rest, h1, h2⟩ := resolveLoop_eq v documented [] v hnd (fun p _ => rfl)
    refine ⟨rest, h2, ?_⟩
    unfold resolveCodes
    rw [hs, h1]
    dsimp only
    by_cases h0 : rest = 0
    · rw [if_neg (by omega), if_pos h0]; simp
    · rw [if_pos (by omega), if_neg h0]; rfl
  refine ⟨main, fun v w hvw => ?_⟩
  obtain ⟨r, hr, hv⟩ := main v
  obtain ⟨s, hs', hw⟩ := main w
  rw [hv, hw] at hvw
  have hhex : ∀ n, (pyHex n).head? = some 0x30 ∧ 0x7C ∉ pyHex n := by
    intro n
    have e : pyHex n = [0x30, 0x78] ++ (hexDigits n).reverse := by
      unfold pyHex; congr 1
    refine ⟨by rw [e]; rfl, ?_⟩
    rw [e]
    intro hm
    rcases List.mem_append.1 hm with hm | hm
    · revert hm; decide
    · have := hexDigits_mem n _ (List.mem_reverse.1 hm); omega
  have hmem : ∀ u t : Nat, ∀ x ∈ (documented.filter fun p => u.testBit p.1).map (fun p => Str.ofString p.2) ++
      (if t = 0 then [] else [pyHex t]), x ≠ [] ∧ 0x7C ∉ x := by
    intro u t x hx
    rcases List.mem_append.1 hx with hx | hx
    · obtain ⟨p, hp, rfl⟩ := List.mem_map.1 hx
      obtain ⟨n1, n2⟩ := hnames p (List.mem_filter.1 hp).1
      exact ⟨fun h => (by rw [h] at n1; cases n1), n2⟩
    · split at hx
      · cases hx
      · rw [List.mem_singleton.1 hx]
        obtain ⟨n1, n2⟩ := hhex t
        exact ⟨fun h => (by rw [h] at n1; cases n1), n2⟩
  have hl := pyJoin_inj (c := 0x7C) (s1 := [0x20]) (s2 := [0x20]) (by decide) _ _ (hmem v r) (hmem w s)
    (by have e : Str.ofString " | " = [0x20] ++ 0x7C :: [0x20] := by decide +kernel
        rw [← e]; exact hvw)
  -- documented bits
  have half : ∀ (a b ra rb : Nat), (documented.filter fun p => a.testBit p.1).map (fun p => Str.ofString p.2) ++ (if ra = 0 then [] else [pyHex ra]) =
      (documented.filter fun p => b.testBit p.1).map (fun p => Str.ofString p.2) ++ (if rb = 0 then [] else [pyHex rb]) →
      ∀ p ∈ documented, a.testBit p.1 = true → b.testBit p.1 = true := by
    intro a b ra rb hab p hp ha
    have hin : Str.ofString p.2 ∈ (documented.filter fun p => a.testBit p.1).map (fun p => Str.ofString p.2) ++ (if ra = 0 then [] else [pyHex ra]) :=
      List.mem_append.2 (.inl (List.mem_map.2 ⟨p, List.mem_filter.2 ⟨hp, ha⟩, rfl⟩))
    rw [hab] at hin
    rcases List.mem_append.1 hin with hin | hin
    · obtain ⟨q, hq, he⟩ := List.mem_map.1 hin
      obtain ⟨q1, q2⟩ := List.mem_filter.1 hq
      rw [← hinj q q1 p hp he]; exact q2
    · exfalso
      split at hin
      · cases hin
      · have e := List.mem_singleton.1 hin
        have n1 := (hnames p hp).1
        rw [e, (hhex rb).1] at n1
        cases n1
  -- the other bits
  have hrest : r = s := by
    have hlast : ∀ (a ra rb : Nat) (l : List Str), (documented.filter fun p => a.testBit p.1).map (fun p => Str.ofString p.2) ++ (if ra = 0 then [] else [pyHex ra]) =
        l ++ (if rb = 0 then [] else [pyHex rb]) → rb ≠ 0 → ra = rb := by
      intro a ra rb l he hb
      rw [if_neg hb] at he
      have hin : pyHex rb ∈ (documented.filter fun p => a.testBit p.1).map (fun p => Str.ofString p.2) ++ (if ra = 0 then [] else [pyHex ra]) := by
        rw [he]; simp
      rcases List.mem_append.1 hin with hin | hin
      · exfalso
        obtain ⟨q, hq, he⟩ := List.mem_map.1 hin
        have n1 := (hnames q (List.mem_filter.1 hq).1).1
        rw [he, (hhex rb).1] at n1
        cases n1
      · split at hin
        · cases hin
        · exact (pyHex_inj (List.mem_singleton.1 hin)).symm
    by_cases h0 : s = 0
    · by_cases h1 : r = 0
      · omega
      · exact (hlast w s r _ hl.symm h1).symm
    · exact hlast v r s _ hl h0
  apply Nat.eq_of_testBit_eq
  intro i
  by_cases hi : i ∈ documented.map (·.1)
  · obtain ⟨p, hp, rfl⟩ := List.mem_map.1 hi
    cases hva : v.testBit p.1 with
    | true => exact (half v w r s hl p hp hva).symm
    | false =>
      cases hwa : w.testBit p.1 with
      | false => rfl
      | true => rw [half w v s r hl.symm p hp hwa] at hva; cases hva
  · have e1 := hr i
    have e2 := hs' i
    rw [decide_eq_true hi, Bool.and_true] at e1 e2
    rw [← e1, ← e2, hrest]

/-- C30, for reason codes. -/
theorem C30_reasons : Lossless documentedReasons resolveReasonCodes :=
  lossless_of _ _ (by decide +kernel) (by decide +kernel) (by decide +kernel) (by decide +kernel)

/-- C30, for source codes. -/
theorem C30_sources : Lossless documentedSources resolveSourceCodes :=
  lossless_of _ _ (by decide +kernel) (by decide +kernel) (by decide +kernel) (by decide +kernel)

/-- Not vacuous: documented and other bits. -/
example : resolveReasonCodes 0x81000300 = Str.ofString "USN_REASON_FILE_CREATE | USN_REASON_FILE_DELETE | USN_REASON_CLOSE | 0x1000000" := by
  decide +kernel

/-! ### C31: fields -/

/-- C31: a buffer is accepted exactly when it begins with a valid record (whose length is a positive
multiple of 8 and fits the buffer), and the object then holds this record and nothing else. -/
theorem C31_accepted (buf : Bytes) (r : Record) : getUsnRecord buf = .ok r ↔
    ∃ n, n ≤ buf.length ∧ ValidRecord (buf.take n) ∧ r = recordOf (buf.take n) := getUsnRecord_iff buf r

/-- C31: a buffer that is not accepted gives one of two exceptions. -/
theorem C31_refused (buf : Bytes) (e : Exc) (h : getUsnRecord buf = .error e) : e = .ValueError ∨ e = .NotImplementedError :=
  getUsnRecord_error h

/-- C31: the file name of a record of version 2 or 3 is read from inside the record, or refused. -/
theorem C31_name (b : Bytes) (h : ValidRecord b) (base : Nat)
    (hv : (leNat (slice b 4 6) = 2 ∧ base = 56) ∨ (leNat (slice b 4 6) = 3 ∧ base = 72)) :
    (recordOf b).fileName =
      if leNat (slice b base (base + 2)) = 0 ∨
          leNat (slice b (base + 2) (base + 4)) + leNat (slice b base (base + 2)) ≤ b.length then
        .ok (utf16Decode (slice b (leNat (slice b (base + 2) (base + 4)))
          (leNat (slice b (base + 2) (base + 4)) + leNat (slice b base (base + 2)))))
      else .error .ValueError := by
  have hr : (recordOf b).raw = b := recordOf_raw b
  have hinc : 56 + (recordOf b).increment = base := by
    unfold recordOf
    rcases hv with ⟨h1, h2⟩ | ⟨h1, h2⟩
    · rw [if_pos h1, h2]; rfl
    · rw [if_neg (by omega), if_pos h1, h2]; rfl
  have hlen : base + 4 ≤ b.length := by
    have := h.version
    have := h.aligned
    omega
  unfold Record.fileName Record.nameOffset Record.nameLength
  rw [hr, show 58 + (recordOf b).increment = base + 2 by omega, show 60 + (recordOf b).increment = base + 4 by omega, hinc,
    unpackLE_of_length (by rw [slice_length]; omega), unpackLE_of_length (by rw [slice_length]; omega)]
  dsimp only
  rw [slice_length]
  generalize leNat (slice b (base + 2) (base + 4)) = o
  generalize leNat (slice b base (base + 2)) = l
  by_cases hc : l = 0 ∨ o + l ≤ b.length
  · rw [if_pos hc, if_neg (by omega)]
  · rw [if_neg hc, if_pos (by omega)]

theorem reference128_eq (b : Bytes) (i : Nat) (h : i + 16 ≤ b.length) : reference128 b i = .ok (leNat (slice b i (i + 16))) := by
  unfold reference128
  rw [unpackLE_of_length (by rw [slice_length]; omega), unpackLE_of_length (by rw [slice_length]; omega)]
  dsimp only
  have hl : (slice b i (i + 8)).length = 8 := by rw [slice_length]; omega
  have hlt := leNat_lt (slice b i (i + 8))
  rw [hl] at hlt
  rw [shiftLeft_or_of_lt (by omega), ← slice_append_adj b (i := i) (j := i + 8) (k := i + 16) (by omega) (by omega), leNat_append, hl,
    Nat.mul_comm, show (2 : Nat) ^ 64 = 256 ^ 8 by decide, Nat.add_comm]

/-- Where the fields of a record are, by version: the references of the file and of its parent (start and
size), the USN, the reason and the source. -/
def fieldOffsets : Nat → (Nat × Nat) × (Nat × Nat) × Nat × Nat × Nat
  | 2 => ((8, 8), (16, 8), 24, 40, 44)
  | 3 => ((8, 16), (24, 16), 40, 56, 60)
  | _ => ((8, 16), (24, 16), 40, 48, 52)

/-- C31: the numeric fields of a valid record are read, without an error, from their places inside it. -/
theorem C31_fields (b : Bytes) (h : ValidRecord b) :
    let o := fieldOffsets (leNat (slice b 4 6))
    (recordOf b).fileReference = .ok (leNat (slice b o.1.1 (o.1.1 + o.1.2))) ∧
    (recordOf b).parentReference = .ok (leNat (slice b o.2.1.1 (o.2.1.1 + o.2.1.2))) ∧
    (recordOf b).usn = .ok (leNat (slice b o.2.2.1 (o.2.2.1 + 8))) ∧
    (recordOf b).reason = .ok (leNat (slice b o.2.2.2.1 (o.2.2.2.1 + 4))) ∧
    (recordOf b).sourceInfo = .ok (leNat (slice b o.2.2.2.2 (o.2.2.2.2 + 4))) := by
  unfold recordOf
  rcases h.version with ⟨h1, h2⟩ | ⟨h1, h2⟩ | ⟨h1, h2⟩
  · rw [h1, if_pos rfl]
    exact ⟨unpackLE_of_length (by rw [slice_length]; omega), unpackLE_of_length (by rw [slice_length]; omega),
      unpackLE_of_length (by rw [slice_length]; simp only [Record.increment]; omega),
      unpackLE_of_length (by rw [slice_length]; simp only [Record.increment]; omega),
      unpackLE_of_length (by rw [slice_length]; simp only [Record.increment]; omega)⟩
  · rw [h1, if_neg (by decide), if_pos rfl]
    exact ⟨reference128_eq b 8 (by omega), reference128_eq b 24 (by omega),
      unpackLE_of_length (by rw [slice_length]; simp only [Record.increment]; omega),
      unpackLE_of_length (by rw [slice_length]; simp only [Record.increment]; omega),
      unpackLE_of_length (by rw [slice_length]; simp only [Record.increment]; omega)⟩
  · rw [h1, if_neg (by decide), if_neg (by decide)]
    exact ⟨reference128_eq b 8 (by omega), reference128_eq b 24 (by omega),
      unpackLE_of_length (by rw [slice_length]; omega), unpackLE_of_length (by rw [slice_length]; omega),
      unpackLE_of_length (by rw [slice_length]; omega)⟩

theorem extentsLoop_eq (b : Bytes) (size : Nat) : ∀ (n pos : Nat), pos ≤ b.length →
    extentsLoop b size n pos = ((List.range n).filter fun k => pos + (k + 1) * size ≤ b.length).map fun k =>
      if size = 16 then .pair (leInt (slice b (pos + k * size) (pos + k * size + 8))) (leInt (slice b (pos + k * size + 8) (pos + k * size + 16)))
      else .raw (slice b (pos + k * size) (pos + k * size + size))
  | 0, pos, _ => rfl
  | n + 1, pos, hp => by
    rw [extentsLoop]
    by_cases hl : pos + size ≤ b.length
    · rw [if_neg (by rw [slice_length]; omega), extentsLoop_eq b size n (pos + size) hl, List.range_succ_eq_map,
        List.filter_cons_of_pos (by simpa using hl), List.map_cons]
      congr 1
      · rw [Nat.zero_mul, Nat.add_zero]
        split
        · next h16 => subst h16; rw [slice_slice _ _ _ _ _ (by omega), slice_slice _ _ _ _ _ (by omega)]; rfl
        · rfl
      · rw [List.filter_map, List.map_map]
        have e : ∀ k, pos + size + k * size = pos + (k + 1) * size := fun k => by rw [Nat.add_mul, Nat.one_mul]; omega
        have hf : (fun k => decide (pos + size + (k + 1) * size ≤ b.length)) = (fun k => decide (pos + (k + 1) * size ≤ b.length)) ∘ Nat.succ := by
          funext k
          show decide (pos + size + (k + 1) * size ≤ b.length) = decide (pos + (k + 1 + 1) * size ≤ b.length)
          rw [e]
        rw [hf]
        apply List.map_congr_left
        intro k _
        show _ = (if size = 16 then Extent.pair (leInt (slice b (pos + (k + 1) * size) (pos + (k + 1) * size + 8)))
          (leInt (slice b (pos + (k + 1) * size + 8) (pos + (k + 1) * size + 16)))
          else Extent.raw (slice b (pos + (k + 1) * size) (pos + (k + 1) * size + size)))
        rw [e]
    · rw [if_pos (by rw [slice_length]; omega)]
      symm
      rw [List.map_eq_nil_iff, List.filter_eq_nil_iff]
      intro k _
      have : size ≤ (k + 1) * size := Nat.le_mul_of_pos_left _ (by omega)
      simp only [decide_eq_true_eq]; omega

/-- C31: the extents of a version 4 record: extent `k` is the bytes `64 + k * size` to `64 + (k + 1) * size`
of the record, for all the extents declared that lie inside the record. -/
theorem C31_extents (b : Bytes) (h : ValidRecord b) (hv : leNat (slice b 4 6) = 4) :
    (recordOf b).extents = ⟨((List.range (leNat (slice b 60 62))).filter fun k => 64 + (k + 1) * leNat (slice b 62 64) ≤ b.length).map fun k =>
      let at_ := 64 + k * leNat (slice b 62 64)
      if leNat (slice b 62 64) = 16 then .pair (leInt (slice b at_ (at_ + 8))) (leInt (slice b (at_ + 8) (at_ + 16)))
      else .raw (slice b at_ (at_ + leNat (slice b 62 64))), none⟩ := by
  have hlen : 80 ≤ b.length := by have := h.version; omega
  unfold Record.extents
  rw [recordOf_raw, unpackLE_of_length (by rw [slice_length]; omega), unpackLE_of_length (by rw [slice_length]; omega)]
  dsimp only
  rw [extentsLoop_eq _ _ _ _ (by omega)]

/-- Not vacuous: a valid record whose name is "a". -/
example : ValidRecord record64 ∧ (recordOf record64).fileName.toOption = some (Str.ofString "a") ∧
    (recordOf record64).reason.toOption = some 0x100 :=
  ⟨record64_valid, by decide +kernel, by decide +kernel⟩

/-- A version 4 record of 96 bytes with two extents. -/
def record96 : Bytes := natLE 4 96 ++ natLE 2 4 ++ zeros 54 ++ natLE 2 2 ++ natLE 2 16 ++ natLE 8 1 ++ natLE 8 2 ++ natLE 8 3 ++ natLE 8 4

example : ValidRecord record96 ∧ leNat (slice record96 4 6) = 4 ∧ (recordOf record96).extents.items = [.pair 1 2, .pair 3 4] :=
  ⟨⟨by decide +kernel, by decide +kernel, .inr (.inr ⟨by decide +kernel, by decide +kernel⟩)⟩, by decide +kernel, by decide +kernel⟩

end Verif.Props
