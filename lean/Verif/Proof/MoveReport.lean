/-
Lemmas for C100: hexadecimal digits, GUIDs, names, and texts that can be told apart.
-/
import Verif.Model.Scripts.Move
import Verif.Spec.MoveReport
namespace Verif.Proof.MoveReport
open Verif.Scripts Verif.Spec.MoveReport Verif.Spec.Text

/-! ### Hexadecimal digits -/

/-- A hexadecimal digit of the specification. -/
def digit (d : Nat) : Nat := if d < 10 then 0x30 + d else 0x57 + d

theorem lowerHexDigit_eq (d : Nat) : lowerHexDigit d = digit d := by
  unfold lowerHexDigit digit
  split <;> omega

theorem digit_inj {a b : Nat} (ha : a < 16) (hb : b < 16) (h : digit a = digit b) : a = b := by
  unfold digit at h
  split at h <;> split at h <;> omega

theorem digits_eq (w n : Nat) : digits w n = (List.range w).map fun i => digit (n / 16 ^ (w - 1 - i) % 16) := rfl

theorem digits_length (w n : Nat) : (digits w n).length = w := by rw [digits_eq]; simp

theorem digits_succ (w n : Nat) : digits (w + 1) n = digits w (n / 16) ++ [digit (n % 16)] := by
  rw [digits_eq, digits_eq, List.range_succ, List.map_append]
  congr 1
  · apply List.map_congr_left
    intro i hi
    rw [List.mem_range] at hi
    rw [Nat.div_div_eq_div_mul, ← Nat.pow_succ', show (w - 1 - i).succ = w + 1 - 1 - i by omega]
  · simp

theorem digits_inj {w n m : Nat} (hn : n < 16 ^ w) (hm : m < 16 ^ w) (h : digits w n = digits w m) : n = m := by
  induction w generalizing n m with
  | zero => simp at hn hm; omega
  | succ w ih =>
    rw [digits_succ, digits_succ] at h
    obtain ⟨h1, h2⟩ := List.append_inj h (by simp [digits_length])
    have e1 := ih (by rw [Nat.pow_succ] at hn; omega) (by rw [Nat.pow_succ] at hm; omega) h1
    have e2 := digit_inj (Nat.mod_lt _ (by decide)) (Nat.mod_lt _ (by decide)) (List.singleton_inj.1 h2)
    omega

theorem lowerHex_append (a b : Bytes) : lowerHex (a ++ b) = lowerHex a ++ lowerHex b := by simp [lowerHex]

theorem lowerHex_length (a : Bytes) : (lowerHex a).length = 2 * a.length := by
  induction a with
  | nil => rfl
  | cons x a ih => rw [show x :: a = [x] ++ a from rfl, lowerHex_append]; simp [ih]; simp [lowerHex]; omega

theorem lowerHex_reverse (l : Bytes) : lowerHex l.reverse = digits (2 * l.length) (leNat l) := by
  induction l with
  | nil => rfl
  | cons x l ih =>
    have hx := x.toNat_lt
    rw [List.reverse_cons, lowerHex_append, ih, List.length_cons, show 2 * (l.length + 1) = 2 * l.length + 1 + 1 by omega, digits_succ, digits_succ]
    have e1 : leNat (x :: l) / 16 / 16 = leNat l := by rw [leNat]; omega
    have e2 : leNat (x :: l) / 16 % 16 = x.toNat / 16 := by rw [leNat]; omega
    have e3 : leNat (x :: l) % 16 = x.toNat % 16 := by rw [leNat]; omega
    rw [e1, e2, e3]
    simp [lowerHex, lowerHexDigit_eq]

theorem lowerHex_eq (l : Bytes) : lowerHex l = digits (2 * l.length) (bigNat l) := by
  have := lowerHex_reverse l.reverse
  rwa [List.reverse_reverse, List.length_reverse] at this

/-! ### GUIDs -/

theorem guidText_eq {b : Bytes} (h : b.length = 16) : guidText b = guid b := by
  have l1 : (slice b 0 4).length = 4 := by rw [slice_length]; omega
  have l2 : (slice b 4 6).length = 2 := by rw [slice_length]; omega
  have l3 : (slice b 6 8).length = 2 := by rw [slice_length]; omega
  have l4 : (slice b 8 10).length = 2 := by rw [slice_length]; omega
  have l5 : (slice b 10 16).length = 6 := by rw [slice_length]; omega
  have e8 : b.drop 8 = slice b 8 10 ++ slice b 10 16 := by
    unfold slice
    rw [show b.drop 10 = (b.drop 8).drop 2 by rw [List.drop_drop]]
    rw [show ((b.drop 8).drop 2).take (16 - 10) = (b.drop 8).drop 2 from List.take_of_length_le (by simp; omega)]
    exact (List.take_append_drop 2 _).symm
  have d1 := lowerHex_reverse (slice b 0 4)
  have d2 := lowerHex_reverse (slice b 4 6)
  have d3 := lowerHex_reverse (slice b 6 8)
  have d4 := lowerHex_eq (slice b 8 10)
  have d5 := lowerHex_eq (slice b 10 16)
  rw [l1] at d1; rw [l2] at d2; rw [l3] at d3; rw [l4] at d4; rw [l5] at d5
  unfold guidText guid
  dsimp only
  rw [e8]
  simp only [lowerHex_append]
  rw [d1, d2, d3, d4, d5]
  generalize ha : digits (2 * 4) (leNat (slice b 0 4)) = A
  generalize hb : digits (2 * 2) (leNat (slice b 4 6)) = B
  generalize hc : digits (2 * 2) (leNat (slice b 6 8)) = C
  generalize hd : digits (2 * 2) (bigNat (slice b 8 10)) = D
  generalize he : digits (2 * 6) (bigNat (slice b 10 16)) = E
  have la : A.length = 8 := by rw [← ha, digits_length]
  have lb : B.length = 4 := by rw [← hb, digits_length]
  have lc : C.length = 4 := by rw [← hc, digits_length]
  have ld : D.length = 4 := by rw [← hd, digits_length]
  have x1 : (A ++ B ++ C ++ (D ++ E)).take 8 = A := by
    simp only [List.append_assoc]; rw [List.take_append_of_le_length (by omega), List.take_of_length_le (by omega)]
  have x2 : ((A ++ B ++ C ++ (D ++ E)).drop 8).take 4 = B := by
    simp only [List.append_assoc]; rw [← la, List.drop_left, ← lb, List.take_left]
  have x3 : ((A ++ B ++ C ++ (D ++ E)).drop 12).take 4 = C := by
    rw [show A ++ B ++ C ++ (D ++ E) = (A ++ B) ++ (C ++ (D ++ E)) by simp, show 12 = (A ++ B).length by simp [la, lb], List.drop_left, ← lc, List.take_left]
  have x4 : ((A ++ B ++ C ++ (D ++ E)).drop 16).take 4 = D := by
    rw [show 16 = (A ++ B ++ C).length by simp [la, lb, lc], List.drop_left, ← ld, List.take_left]
  have x5 : (A ++ B ++ C ++ (D ++ E)).drop 20 = E := by
    rw [show A ++ B ++ C ++ (D ++ E) = (A ++ B ++ C ++ D) ++ E by simp, show 20 = (A ++ B ++ C ++ D).length by simp [la, lb, lc, ld], List.drop_left]
  rw [x1, x2, x3, x4, x5]
  simp [pyJoin]

theorem guid_length (b : Bytes) : (guid b).length = 36 := by unfold guid; simp [digits_length]

theorem leNat_inj' {a b : Bytes} (hl : a.length = b.length) (h : leNat a = leNat b) : a = b := by
  induction a generalizing b with
  | nil => cases b with
    | nil => rfl
    | cons => cases hl
  | cons x a ih => cases b with
    | nil => cases hl
    | cons y b =>
      have hx := x.toNat_lt
      have hy := y.toNat_lt
      rw [leNat, leNat] at h
      have e : x = y := UInt8.toNat_inj.1 (by omega)
      rw [e, ih (by simpa using hl) (by omega)]

theorem leNat_lt16 {b : Bytes} (w : Nat) (h : 2 * b.length ≤ w) : leNat b < 16 ^ w := by
  refine Nat.lt_of_lt_of_le (?_ : leNat b < 16 ^ (2 * b.length)) (Nat.pow_le_pow_right (by decide) h)
  clear h
  induction b with
  | nil => decide
  | cons x b ih =>
    have hx := x.toNat_lt
    rw [List.length_cons, show 2 * (b.length + 1) = 2 * b.length + 2 by omega, Nat.pow_add, leNat]
    omega

theorem digits_bytes_inj {w : Nat} {a b : Bytes} (ha : 2 * a.length = w) (hb : 2 * b.length = w) (h : digits w (leNat a) = digits w (leNat b)) : a = b :=
  leNat_inj' (by omega) (digits_inj (leNat_lt16 w (by omega)) (leNat_lt16 w (by omega)) h)

theorem guid_inj {a b : Bytes} (ha : a.length = 16) (hb : b.length = 16) (h : guid a = guid b) : a = b := by
  unfold guid at h
  obtain ⟨h, h5⟩ := List.append_inj h (by simp [digits_length])
  obtain ⟨h, -⟩ := List.append_inj h (by simp [digits_length])
  obtain ⟨h, h4⟩ := List.append_inj h (by simp [digits_length])
  obtain ⟨h, -⟩ := List.append_inj h (by simp [digits_length])
  obtain ⟨h, h3⟩ := List.append_inj h (by simp [digits_length])
  obtain ⟨h, -⟩ := List.append_inj h (by simp [digits_length])
  obtain ⟨h, h2⟩ := List.append_inj h (by simp [digits_length])
  obtain ⟨h1, -⟩ := List.append_inj h (by simp [digits_length])
  have e1 := digits_bytes_inj (by rw [slice_length]; omega) (by rw [slice_length]; omega) h1
  have e2 := digits_bytes_inj (by rw [slice_length]; omega) (by rw [slice_length]; omega) h2
  have e3 := digits_bytes_inj (by rw [slice_length]; omega) (by rw [slice_length]; omega) h3
  have e4 := List.reverse_inj.1 (digits_bytes_inj (by rw [List.length_reverse, slice_length]; omega) (by rw [List.length_reverse, slice_length]; omega) h4)
  have e5 := List.reverse_inj.1 (digits_bytes_inj (by rw [List.length_reverse, slice_length]; omega) (by rw [List.length_reverse, slice_length]; omega) h5)
  have split : ∀ l : Bytes, l.length = 16 → l = slice l 0 4 ++ slice l 4 6 ++ slice l 6 8 ++ slice l 8 10 ++ slice l 10 16 := by
    intro l hl
    apply List.ext_getElem?
    intro i
    simp only [List.append_assoc]
    have : ∀ i j : Nat, j ≤ 16 → (slice l i j).length = j - i := fun i j hj => by rw [slice_length]; omega
    by_cases h1 : i < 4
    · rw [List.getElem?_append_left (by rw [this] <;> omega), slice_getElem?, if_pos (by omega)]; simp
    rw [List.getElem?_append_right (by rw [this] <;> omega), this 0 4 (by omega)]
    by_cases h2 : i < 6
    · rw [List.getElem?_append_left (by rw [this] <;> omega), slice_getElem?, if_pos (by omega)]; congr 1; omega
    rw [List.getElem?_append_right (by rw [this] <;> omega), this 4 6 (by omega)]
    by_cases h3 : i < 8
    · rw [List.getElem?_append_left (by rw [this] <;> omega), slice_getElem?, if_pos (by omega)]; congr 1; omega
    rw [List.getElem?_append_right (by rw [this] <;> omega), this 6 8 (by omega)]
    by_cases h4 : i < 10
    · rw [List.getElem?_append_left (by rw [this] <;> omega), slice_getElem?, if_pos (by omega)]; congr 1; omega
    rw [List.getElem?_append_right (by rw [this] <;> omega), this 8 10 (by omega), slice_getElem?]
    split
    · congr 1; omega
    · exact List.getElem?_eq_none (by omega)
  rw [split a ha, split b hb, e1, e2, e3, e4, e5]

/-! ### Names -/

theorem cp866Char_eq (x : UInt8) : cp866Char x = cp866 x.toNat := by
  have h : ∀ n, n < 256 → (if n < 128 then n else cp866Upper.getD (n - 128) 0) = cp866 n := by decide +kernel
  exact h _ x.toNat_lt

theorem windows1252Char_eq (x : UInt8) : windows1252Char x = Spec.MoveReport.windows1252 x.toNat := by
  have h : ∀ n, n < 256 → (if n < 128 ∨ 160 ≤ n then some n else windows1252Upper.getD (n - 128) none) = Spec.MoveReport.windows1252 n := by decide +kernel
  exact h _ x.toNat_lt

theorem windows1252_some (b : Bytes) (s : Str) : Scripts.windows1252 b = some s ↔ b.map (fun x => Spec.MoveReport.windows1252 x.toNat) = s.map some := by
  induction b generalizing s with
  | nil => rw [Scripts.windows1252]; cases s <;> simp
  | cons x b ih =>
    rw [Scripts.windows1252, List.map_cons]
    rw [← windows1252Char_eq]
    cases h1 : windows1252Char x with
    | none => cases s <;> simp
    | some c =>
      cases h2 : Scripts.windows1252 b with
      | none =>
        cases s with
        | nil => simp
        | cons d s =>
          rw [List.map_cons, List.cons.injEq, ← ih s, h2]
          simp
      | some t =>
        cases s with
        | nil => simp
        | cons d s =>
          rw [List.map_cons, List.cons.injEq, ← ih s, h2]
          simp

theorem windows1252_none (b : Bytes) (h : Scripts.windows1252 b = none) : ∃ x ∈ b, Spec.MoveReport.windows1252 x.toNat = none := by
  induction b with
  | nil => cases h
  | cons x b ih =>
    cases h1 : windows1252Char x with
    | none => exact ⟨x, by simp, by rw [← windows1252Char_eq, h1]⟩
    | some c =>
      cases h2 : Scripts.windows1252 b with
      | none => obtain ⟨y, hy, e⟩ := ih h2; exact ⟨y, by simp [hy], e⟩
      | some t => rw [Scripts.windows1252, h1, h2] at h; cases h

theorem decodeString_text (b : Bytes) : NameText (decodeString b) b := by
  have e1 : b.map cp866Char = b.map fun x => cp866 x.toNat := List.map_congr_left fun x _ => cp866Char_eq x
  unfold decodeString NameText
  dsimp only
  rw [← e1]
  cases h : Scripts.windows1252 b with
  | none => exact .inl ⟨rfl, windows1252_none b h⟩
  | some s =>
    refine .inr ⟨s, (windows1252_some b s).1 h, ?_⟩
    dsimp only
    by_cases hs : b.map cp866Char = s
    · rw [if_pos hs]; exact .inl ⟨hs, rfl⟩
    · rw [if_neg hs]; exact .inr ⟨hs, rfl⟩

theorem cp866_inj {a b : UInt8} (h : cp866 a.toNat = cp866 b.toNat) : a = b := by
  have hn : ((List.range 256).map cp866).Nodup := by decide +kernel
  have hi : ∀ n < 256, ((List.range 256).map cp866)[n]? = some (cp866 n) := by
    intro n hn
    rw [List.getElem?_map, List.getElem?_range hn]; rfl
  have ha := hi _ a.toNat_lt
  have hb := hi _ b.toNat_lt
  rw [h] at ha
  have hlen : ((List.range 256).map cp866).length = 256 := by simp
  exact UInt8.toNat_inj.1 ((List.getElem?_inj (by rw [hlen]; exact a.toNat_lt) hn).1 (ha.trans hb.symm))

theorem map_cp866_inj {a b : Bytes} (h : a.map (fun x => cp866 x.toNat) = b.map fun x => cp866 x.toNat) : a = b := by
  induction a generalizing b with
  | nil => cases b with
    | nil => rfl
    | cons => cases h
  | cons x a ih => cases b with
    | nil => cases h
    | cons y b =>
      rw [List.map_cons, List.map_cons, List.cons.injEq] at h
      rw [cp866_inj h.1, ih h.2]

/-- The forms of the text of a name. -/
theorem nameText_forms {s : Str} {b : Bytes} (h : NameText s b) : s = b.map (fun x => cp866 x.toNat) ∨
    ∃ second : Str, second.length = b.length ∧
      s = Str.ofString "\"" ++ b.map (fun x => cp866 x.toNat) ++ Str.ofString "\" (cp-866), \"" ++ second ++ Str.ofString "\" (windows-1252)" := by
  rcases h with ⟨h, -⟩ | ⟨second, h1, ⟨-, h⟩ | ⟨-, h⟩⟩
  · exact .inl h
  · exact .inl h
  · refine .inr ⟨second, ?_, h⟩
    have := congrArg List.length h1
    simpa using this.symm

theorem nameText_inj {s : Str} {a b : Bytes} (ha : a.length ≤ 16) (hb : b.length ≤ 16) (h1 : NameText s a) (h2 : NameText s b) : a = b := by
  rcases nameText_forms h1 with e1 | ⟨t, ht, e1⟩ <;> rcases nameText_forms h2 with e2 | ⟨u, hu, e2⟩
  · exact map_cp866_inj (e1.symm.trans e2)
  · have l1 := congrArg List.length e1
    have l2 := congrArg List.length e2
    simp [Str.ofString] at l1 l2
    omega
  · have l1 := congrArg List.length e1
    have l2 := congrArg List.length e2
    simp [Str.ofString] at l1 l2
    omega
  · have l1 := congrArg List.length e1
    have l2 := congrArg List.length e2
    simp [Str.ofString] at l1 l2
    have hab : a.length = b.length := by omega
    have e := e1.symm.trans e2
    simp only [List.append_assoc] at e
    have e := List.append_cancel_left e
    exact map_cp866_inj (List.append_inj e (by simp [hab])).1

theorem middle (A B C R : Str) (i : Nat) {c q : Nat} (h : C[i]? = some c) (hq : q = A.length + B.length + i) : (A ++ (B ++ (C ++ R)))[q]? = some c := by
  subst hq
  rw [List.getElem?_append_right (by omega), List.getElem?_append_right (by omega),
    List.getElem?_append_left (by have := (List.getElem?_eq_some_iff.1 h).1; omega)]
  rw [← h]
  congr 1
  omega

/-- The text of a name (of at most 16 bytes) ends where the text after it begins. -/
theorem nameText_end {s t sep x y : Str} {a b : Bytes} (ha : a.length ≤ 16) (hb : b.length ≤ 16) (h1 : NameText s a) (h2 : NameText t b)
    (hlen : 17 ≤ sep.length) (hq : 0x22 ∉ sep) (hov : ∀ k, k < sep.length → 1 ≤ k → ∃ i, i < sep.length ∧ (i + k < sep.length ∧ sep[i + k]? ≠ sep[i]?))
    (h : s ++ (sep ++ x) = t ++ (sep ++ y)) : a = b ∧ x = y := by
  have key : ∀ {s t x y : Str} {b : Bytes}, b.length ≤ 16 → NameText t b → s ++ (sep ++ x) = t ++ (sep ++ y) → ¬ s.length < t.length := by
    intro s t x y b hb h2 h hlt
    have hidx : ∀ i, i < sep.length → (s ++ (sep ++ x))[s.length + i]? = sep[i]? := by
      intro i hi
      rw [List.getElem?_append_right (by omega), show s.length + i - s.length = i by omega, List.getElem?_append_left hi]
    have hidy : ∀ i, i < sep.length → (t ++ (sep ++ y))[t.length + i]? = sep[i]? := by
      intro i hi
      rw [List.getElem?_append_right (by omega), show t.length + i - t.length = i by omega, List.getElem?_append_left hi]
    by_cases hk : t.length - s.length < sep.length
    · obtain ⟨i, -, hi, hne⟩ := hov _ hk (by omega)
      apply hne
      rw [← hidx _ hi, ← hidy i (by omega), h]
      congr 1
      omega
    · have hin : ∀ q, s.length ≤ q → q < s.length + sep.length → t[q]? ≠ some 0x22 := by
        intro q hq1 hq2 hc
        have e := hidx (q - s.length) (by omega)
        rw [h, show s.length + (q - s.length) = q by omega, List.getElem?_append_left (by omega), hc] at e
        exact hq (List.mem_of_getElem? e.symm)
      rcases nameText_forms h2 with e2 | ⟨u, hu, e2⟩
      · have l2 := congrArg List.length e2
        simp at l2
        omega
      · have l2 := congrArg List.length e2
        simp [Str.ofString] at l2
        have q0 : t[0]? = some 0x22 := by rw [e2]; rfl
        have q1 : t[1 + b.length]? = some 0x22 := by
          rw [e2]; simp only [List.append_assoc]
          rw [List.getElem?_append_right (by simp [Str.ofString]), List.getElem?_append_right (by simp [Str.ofString])]
          simp [Str.ofString]
        have q2 : t[1 + b.length + 12]? = some 0x22 := by
          rw [e2]; simp only [List.append_assoc]
          exact middle (Str.ofString "\"") (b.map fun x => cp866 x.toNat) (Str.ofString "\" (cp-866), \"") _ 12 (c := 0x22) (q := 1 + b.length + 12)
            (by decide) (by simp [Str.ofString])
        have q3 : t[1 + b.length + 13 + b.length]? = some 0x22 := by
          rw [e2]
          simp only [List.append_assoc]
          rw [← List.append_assoc, ← List.append_assoc]
          have := middle (Str.ofString "\"" ++ b.map (fun x => cp866 x.toNat) ++ Str.ofString "\" (cp-866), \"") u (Str.ofString "\" (windows-1252)") [] 0
            (c := 0x22) (q := 1 + b.length + 13 + b.length) (by decide) (by simp [Str.ofString]; omega)
          rwa [List.append_nil] at this
        have n0 := fun a b => hin _ a b q0
        have n1 := fun a b => hin _ a b q1
        have n2 := fun a b => hin _ a b q2
        have n3 := fun a b => hin _ a b q3
        by_cases c0 : s.length = 0
        · exact n0 (by omega) (by omega)
        · by_cases c1 : s.length ≤ 1 + b.length
          · exact n1 c1 (by omega)
          · by_cases c2 : s.length ≤ 1 + b.length + 12
            · exact n2 c2 (by omega)
            · by_cases c3 : s.length ≤ 1 + b.length + 13 + b.length
              · exact n3 c3 (by omega)
              · omega
  have hl : s.length = t.length := by
    have := key hb h2 h
    have := key ha h1 h.symm
    omega
  obtain ⟨e1, e2⟩ := List.append_inj h hl
  subst e1
  exact ⟨nameText_inj ha hb h1 h2, List.append_cancel_left e2⟩

/-! ### Timestamps -/

theorem denotes_length {s : Str} {t : Nat} (h : Denotes s t) : s.length = 26 := by
  obtain ⟨Y, M, D, h, m, s, f, _, _, _, _, _, _, _, rfl, l1, l2, l3, l4, l5, l6, l7, -⟩ := h
  simp only [List.length_append, List.length_cons, List.length_nil]
  omega

theorem denotes_unique {s : Str} {t u : Nat} (h : Denotes s t) (h' : Denotes s u) : t = u := by
  obtain ⟨Y, M, D, h, m, s, f, y, mo, d, hh, mi, ss, us, rfl, l1, l2, l3, l4, l5, l6, l7, v1, v2, v3, v4, v5, v6, v7, -, -, -, -, -, rfl⟩ := h
  obtain ⟨Y', M', D', h', m', s', f', y', mo', d', hh', mi', ss', us', e, k1, k2, k3, k4, k5, k6, k7, w1, w2, w3, w4, w5, w6, w7, -, -, -, -, -, rfl⟩ := h'
  obtain ⟨e, e7⟩ := List.append_inj' e (by omega)
  obtain ⟨e, -⟩ := List.append_inj' e rfl
  obtain ⟨e, e6⟩ := List.append_inj' e (by omega)
  obtain ⟨e, -⟩ := List.append_inj' e rfl
  obtain ⟨e, e5⟩ := List.append_inj' e (by omega)
  obtain ⟨e, -⟩ := List.append_inj' e rfl
  obtain ⟨e, e4⟩ := List.append_inj' e (by omega)
  obtain ⟨e, -⟩ := List.append_inj' e rfl
  obtain ⟨e, e3⟩ := List.append_inj' e (by omega)
  obtain ⟨e, -⟩ := List.append_inj' e rfl
  obtain ⟨e, e2⟩ := List.append_inj' e (by omega)
  obtain ⟨e1, -⟩ := List.append_inj' e rfl
  subst e1 e2 e3 e4 e5 e6 e7
  rw [v1] at w1; rw [v2] at w2; rw [v3] at w3; rw [v4] at w4; rw [v5] at w5; rw [v6] at w6; rw [v7] at w7
  cases w1; cases w2; cases w3; cases w4; cases w5; cases w6; cases w7
  rfl

theorem denotes_not_na {s x y : Str} {t : Nat} (h : Denotes s t) : s ++ x ≠ Str.ofString "N/A" ++ y := by
  intro e
  obtain ⟨Y, M, D, h, m, s, f, y, mo, d, hh, mi, ss, us, rfl, l1, -, -, -, -, -, -, v1, -⟩ := h
  cases Y with
  | nil => cases l1
  | cons c Y =>
    have hc : c = 0x4E := by
      have := congrArg List.head? e
      simpa [Str.ofString] using this
    subst hc
    have : ∀ (l : Str), List.foldl (fun acc c => acc.bind fun n => if 0x30 ≤ c ∧ c ≤ 0x39 then some (10 * n + (c - 0x30)) else none) none l = (none : Option Nat) := by
      intro l
      induction l with
      | nil => rfl
      | cons a l ih => exact ih
    rw [show decimalValue (0x4E :: Y) = _ from this Y] at v1
    cases v1

/-- Texts of moments can be told apart, and from what follows them. -/
theorem timeText_inj {s s' x y : Str} {t t' : Option Nat} (h : TimeText s t) (h' : TimeText s' t') (e : s ++ x = s' ++ y) : t = t' ∧ x = y := by
  cases t with
  | none =>
    cases t' with
    | none =>
      dsimp only [TimeText] at h h'
      subst h h'
      exact ⟨rfl, List.append_cancel_left e⟩
    | some u =>
      dsimp only [TimeText] at h h'
      subst h
      exact absurd e.symm (denotes_not_na h')
  | some v =>
    cases t' with
    | none =>
      dsimp only [TimeText] at h h'
      subst h'
      exact absurd e (denotes_not_na h)
    | some u =>
      obtain ⟨e1, e2⟩ := List.append_inj e (by rw [denotes_length h, denotes_length h'])
      subst e1
      exact ⟨by rw [denotes_unique h h'], e2⟩

end Verif.Proof.MoveReport
