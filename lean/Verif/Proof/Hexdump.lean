/-
Lemmas about hexadecimal dumps.
-/
import Verif.Model.Scripts.Text
import Verif.Spec.Text
namespace Verif.Proof.Hexdump
open Verif.Scripts Verif.Spec.Text

theorem digit_eq {d : Nat} (_h : d < 16) : upperHexDigit d = hexChar d := by
  unfold upperHexDigit hexChar; split <;> omega

theorem hexChar_value {d : Nat} (h : d < 16) (n : Nat) :
    (if 0x30 ≤ hexChar d ∧ hexChar d ≤ 0x39 then some (16 * n + (hexChar d - 0x30))
    else if 0x41 ≤ hexChar d ∧ hexChar d ≤ 0x46 then some (16 * n + (hexChar d - 0x37)) else none) = some (16 * n + d) := by
  unfold hexChar
  by_cases h1 : d < 10
  · rw [if_pos h1, if_pos (by omega)]; congr 1; omega
  · rw [if_neg h1, if_neg (by omega), if_pos (by omega)]; congr 1; omega

theorem digits_small {n : Nat} (h : n < 16) : upperHexDigits n = [hexChar n] := by
  rw [upperHexDigits, if_pos h, digit_eq h]

theorem digits_large {n : Nat} (h : ¬ n < 16) : upperHexDigits n = hexChar (n % 16) :: upperHexDigits (n / 16) := by
  rw [upperHexDigits, if_neg h, digit_eq (by omega)]

theorem byte_digits {n : Nat} (h : n < 256) : zfill 2 (upperHexDigits n).reverse = [hexChar (n / 16), hexChar (n % 16)] := by
  by_cases h1 : n < 16
  · rw [digits_small h1]
    have h2 : n / 16 = 0 := by omega
    have h3 : n % 16 = n := by omega
    rw [h2, h3]; rfl
  · rw [digits_large h1, digits_small (by omega)]; rfl

theorem hexValue_append_digit (s : Str) {d : Nat} (h : d < 16) : hexValue (s ++ [hexChar d]) = (hexValue s).map (16 * · + d) := by
  unfold hexValue
  rw [List.foldl_append]
  simp only [List.foldl_cons, List.foldl_nil]
  cases List.foldl _ (some 0) s with
  | none => rfl
  | some n => simp only [Option.bind_some, Option.map_some]; exact hexChar_value h n

theorem hexValue_digits (n : Nat) : hexValue (upperHexDigits n).reverse = some n := by
  induction n using Nat.strongRecOn with
  | _ n ih =>
    by_cases h1 : n < 16
    · rw [digits_small h1]
      have := hexValue_append_digit [] h1
      simpa [hexValue] using this
    · rw [digits_large h1, List.reverse_cons, hexValue_append_digit _ (by omega), ih _ (by omega)]
      simp only [Option.map_some]; congr 1; omega

theorem hexValue_zeros (s : Str) : ∀ k, hexValue (List.replicate k 0x30 ++ s) = hexValue s
  | 0 => rfl
  | k + 1 => by
    rw [← hexValue_zeros s k, List.replicate_succ]
    unfold hexValue
    rw [List.cons_append, List.foldl_cons]; rfl

theorem digits_last (n : Nat) (h : n ≠ 0) : (upperHexDigits n).getLast? ≠ some 0x30 := by
  induction n using Nat.strongRecOn with
  | _ n ih =>
    by_cases h1 : n < 16
    · rw [digits_small h1]
      simp only [List.getLast?_singleton, ne_eq, Option.some.injEq]
      unfold hexChar; split <;> omega
    · rw [digits_large h1, List.getLast?_cons]
      have := ih (n / 16) (by omega) (by omega)
      cases hd : (upperHexDigits (n / 16)).getLast? with
      | none =>
        rw [List.getLast?_eq_none_iff] at hd
        rw [upperHexDigits] at hd
        split at hd <;> simp at hd
      | some x => rw [hd] at this; simpa using this

theorem digits_length_pos (n : Nat) : 1 ≤ (upperHexDigits n).length := by
  rw [upperHexDigits]; split <;> simp

/-- The address of a line. -/
theorem address_spec (n : Nat) : 8 ≤ (zfill 8 (zfill 2 (upperHexDigits n).reverse)).length ∧
    (8 < (zfill 8 (zfill 2 (upperHexDigits n).reverse)).length → (zfill 8 (zfill 2 (upperHexDigits n).reverse)).head? ≠ some 0x30) ∧
    hexValue (zfill 8 (zfill 2 (upperHexDigits n).reverse)) = some n := by
  refine ⟨?_, ?_, ?_⟩
  · unfold zfill; simp only [List.length_append, List.length_replicate, List.length_reverse]; omega
  · intro h
    have hl : 8 < (upperHexDigits n).length := by
      unfold zfill at h
      simp only [List.length_append, List.length_replicate, List.length_reverse] at h
      omega
    have e : zfill 8 (zfill 2 (upperHexDigits n).reverse) = (upperHexDigits n).reverse := by
      unfold zfill
      simp only [List.length_append, List.length_replicate, List.length_reverse]
      rw [show 2 - (upperHexDigits n).length = 0 from by omega, show 8 - (0 + (upperHexDigits n).length) = 0 from by omega]
      rfl
    rw [e, List.head?_reverse]
    apply digits_last
    rintro rfl
    rw [digits_small (by omega)] at hl
    simp at hl
  · unfold zfill; rw [hexValue_zeros, hexValue_zeros, hexValue_digits]

theorem column_digit (line : Bytes) {k : Nat} (h : k < line.length) :
    dumpColumn line (3 * k) = hexChar (line[k].toNat / 16) ∧ dumpColumn line (3 * k + 1) = hexChar (line[k].toNat % 16) ∧
    dumpColumn line (3 * k + 2) = (if k = 7 ∧ 8 < line.length then 0x2D else 0x20) := by
  have e0 : 3 * k / 3 = k := by omega
  have e1 : (3 * k + 1) / 3 = k := by omega
  have e2 : (3 * k + 2) / 3 = k := by omega
  unfold dumpColumn
  rw [e0, e1, e2, List.getElem?_eq_getElem h]
  dsimp only
  rw [if_pos (by omega), if_neg (by omega), if_pos (by omega), if_neg (by omega), if_neg (by omega)]
  exact ⟨rfl, rfl, rfl⟩

theorem column_blank (line : Bytes) {p : Nat} (h : 3 * line.length ≤ p) : dumpColumn line p = 0x20 := by
  unfold dumpColumn
  rw [List.getElem?_eq_none (by omega)]

theorem hexBytes_columns (line : Bytes) (h16 : line.length ≤ 16) : ∀ (rest : Bytes) (k : Nat), rest ≠ [] → line.drop k = rest →
    hexBytes line.length k rest ++ List.replicate (3 * (16 - line.length)) 0x20 = (List.range' (3 * k) (47 - 3 * k)).map (dumpColumn line)
  | [], _, h, _ => absurd rfl h
  | b :: rest, k, _, hd => by
    have hk : k < line.length := by
      apply Decidable.byContradiction; intro hn
      rw [List.drop_of_length_le (by omega)] at hd; cases hd
    have hb : line[k] = b := by
      have := List.drop_eq_getElem_cons hk
      rw [hd] at this; cases this; rfl
    obtain ⟨c0, c1, c2⟩ := column_digit line hk
    rw [hb] at c0 c1
    have hrest : line.drop (k + 1) = rest := by
      have := List.drop_eq_getElem_cons hk
      rw [hd] at this; cases this; rfl
    rw [hexBytes, byte_digits b.toNat_lt]
    cases hr : rest with
    | nil =>
      have hlen : line.length = k + 1 := by
        rw [hr] at hrest
        have := congrArg List.length hrest
        simp at this; omega
      rw [if_neg (by omega), if_neg (by omega), hexBytes]
      have e : 47 - 3 * k = (3 * (16 - line.length)) + 1 + 1 := by omega
      rw [e, List.range'_succ, List.range'_succ, List.map_cons, List.map_cons, c0, c1]
      simp only [List.append_nil, List.cons_append, List.nil_append]
      congr 2
      symm
      rw [List.eq_replicate_iff]
      refine ⟨by simp, ?_⟩
      intro x hx
      obtain ⟨p, hp, rfl⟩ := List.mem_map.mp hx
      rw [List.mem_range'_1] at hp
      by_cases h2 : p = 3 * k + 2
      · rw [h2, c2, if_neg (by omega)]
      · exact column_blank line (by omega)
    | cons b' rest' =>
      have hlen : k + 1 < line.length := by
        rw [hr] at hrest
        have := congrArg List.length hrest
        simp at this; omega
      rw [← hr]
      have ih := hexBytes_columns line h16 rest (k + 1) (by rw [hr]; simp) hrest
      have e : 47 - 3 * k = (47 - 3 * (k + 1)) + 1 + 1 + 1 := by omega
      rw [e, List.range'_succ, List.range'_succ, List.range'_succ, List.map_cons, List.map_cons, List.map_cons, c0, c1]
      rw [show 3 * k + 1 + 1 = 3 * k + 2 from rfl, show 3 * k + 2 + 1 = 3 * (k + 1) from by omega, c2, ← ih]
      by_cases h7 : k = 7
      · rw [if_pos ⟨h7, by omega⟩, if_pos ⟨h7, by omega⟩]; rfl
      · rw [if_neg (fun h => h7 h.1), if_pos (by omega), if_neg (fun h => h7 h.1)]; rfl

theorem hexLine_spec (b : Bytes) (j : Nat) (h : 16 * j < b.length) : IsDumpLine b j (hexLine (16 * j) ((b.drop (16 * j)).take 16)) := by
  have hs : slice b (16 * j) (16 * j + 16) = (b.drop (16 * j)).take 16 := by
    unfold slice; rw [Nat.add_sub_cancel_left]
  obtain ⟨a1, a2, a3⟩ := address_spec (16 * j)
  refine ⟨_, a1, a2, a3, ?_⟩
  rw [hs]
  generalize hl : (b.drop (16 * j)).take 16 = line
  have h16 : line.length ≤ 16 := by rw [← hl, List.length_take]; omega
  have hne : line ≠ [] := by
    intro h0
    rw [h0] at hl
    have := congrArg List.length hl
    simp only [List.length_take, List.length_drop, List.length_nil] at this
    omega
  have := hexBytes_columns line h16 line 0 hne rfl
  unfold hexLine
  rw [this, List.range_eq_range']
  have hc : line.map asciiChar = line.map dumpChar := by
    apply List.map_congr_left
    intro x _
    unfold asciiChar dumpChar
    have : (x.toNat ≥ 32 ∧ x.toNat ≤ 126) ↔ (32 ≤ x.toNat ∧ x.toNat < 127) := by omega
    simp only [this]
  rw [hc]

theorem hexLines_spec (b : Bytes) : ∀ (fuel j : Nat), b.length - 16 * j ≤ fuel → 16 * j < b.length →
    hexLines (16 * j) (b.drop (16 * j)) =
      pyJoin [0x0A] ((List.range' j ((b.length + 15) / 16 - j)).map fun j => hexLine (16 * j) ((b.drop (16 * j)).take 16)) := by
  intro fuel
  induction fuel with
  | zero => intro j h1 h2; omega
  | succ fuel ih =>
    intro j h1 h2
    rw [hexLines, if_neg (by rw [List.length_drop]; omega)]
    by_cases h3 : 16 < (b.drop (16 * j)).length
    · rw [if_pos h3]
      rw [List.length_drop] at h3
      have hi := ih (j + 1) (by omega) (by omega)
      have e : (b.length + 15) / 16 - j = ((b.length + 15) / 16 - (j + 1) - 1) + 1 + 1 := by omega
      have e' : (b.length + 15) / 16 - (j + 1) = ((b.length + 15) / 16 - (j + 1) - 1) + 1 := by omega
      rw [e, List.range'_succ, List.map_cons]
      rw [e'] at hi
      rw [List.range'_succ, List.map_cons] at hi ⊢
      rw [pyJoin, ← hi, List.drop_drop, show 16 * (j + 1) = 16 * j + 16 from by omega]
      simp
    · rw [if_neg h3]
      rw [List.length_drop] at h3
      have e : (b.length + 15) / 16 - j = 1 := by omega
      rw [e]; simp [pyJoin]

/-! ### Reading a dump -/

theorem column_inj {a b : Bytes} (ha : a.length ≤ 16) (hb : b.length ≤ 16) (hl : a.length = b.length)
    (h : (List.range 47).map (dumpColumn a) = (List.range 47).map (dumpColumn b)) : a = b := by
  have hp : ∀ p < 47, dumpColumn a p = dumpColumn b p := by
    intro p hp
    have := congrArg (·[p]?) h
    simp only [List.getElem?_map, List.getElem?_range hp, Option.map_some, Option.some.injEq] at this
    exact this
  apply List.ext_getElem hl
  intro k h1 h2
  obtain ⟨a0, a1, -⟩ := column_digit a h1
  obtain ⟨b0, b1, -⟩ := column_digit b h2
  have e0 := hp (3 * k) (by omega)
  have e1 := hp (3 * k + 1) (by omega)
  rw [a0, b0] at e0
  rw [a1, b1] at e1
  have inj : ∀ {x y : Nat}, x < 16 → y < 16 → hexChar x = hexChar y → x = y := by
    intro x y hx hy h
    unfold hexChar at h
    split at h <;> split at h <;> omega
  have l1 := a[k].toNat_lt
  have l2 := b[k].toNat_lt
  have := inj (by omega) (by omega) e0
  have := inj (by omega) (by omega) e1
  apply UInt8.toNat_inj.mp
  omega

theorem dumpChar_ne (b : UInt8) : dumpChar b ≠ 0x0A := by unfold dumpChar; split <;> omega

theorem column_ne (line : Bytes) (p : Nat) : dumpColumn line p ≠ 0x0A := by
  unfold dumpColumn
  cases line[p / 3]? with
  | none => simp
  | some b =>
    dsimp only
    have : ∀ d, hexChar d ≠ 0x0A := fun d => by unfold hexChar; split <;> omega
    split
    · exact this _
    · split
      · exact this _
      · split <;> simp

theorem hexValue_ne {s : Str} {n c : Nat} (h : hexValue s = some n) (hc : c < 0x30) : c ∉ s := by
  intro hm
  have stuck : ∀ (s : Str), s.foldl (fun acc c => acc.bind fun n =>
      if 0x30 ≤ c ∧ c ≤ 0x39 then some (16 * n + (c - 0x30))
      else if 0x41 ≤ c ∧ c ≤ 0x46 then some (16 * n + (c - 0x37)) else none) (none : Option Nat) = none := by
    intro s; induction s with
    | nil => rfl
    | cons c s ih => rw [List.foldl_cons]; exact ih
  have key : ∀ (s : Str) (acc : Option Nat), c ∈ s → s.foldl (fun acc c => acc.bind fun n =>
      if 0x30 ≤ c ∧ c ≤ 0x39 then some (16 * n + (c - 0x30))
      else if 0x41 ≤ c ∧ c ≤ 0x46 then some (16 * n + (c - 0x37)) else none) acc = none := by
    intro s
    induction s with
    | nil => intro acc h; simp at h
    | cons c s ih =>
      intro acc h
      rw [List.foldl_cons]
      rcases List.mem_cons.mp h with rfl | h
      · have : ∀ acc : Option Nat, (acc.bind fun n => if 0x30 ≤ c ∧ c ≤ 0x39 then some (16 * n + (c - 0x30))
          else if 0x41 ≤ c ∧ c ≤ 0x46 then some (16 * n + (c - 0x37)) else none) = none := by
          intro acc
          cases acc with
          | none => rfl
          | some n => simp only [Option.bind_some]; rw [if_neg (by omega), if_neg (by omega)]
        rw [this]
        exact stuck s
      · exact ih _ h
  unfold hexValue at h
  rw [key s _ hm] at h
  cases h

theorem line_ne {b : Bytes} {j : Nat} {text : Str} (h : IsDumpLine b j text) : text ≠ [] ∧ 0x0A ∉ text := by
  obtain ⟨address, h1, -, h3, rfl⟩ := h
  refine ⟨?_, ?_⟩
  · intro h0
    have := congrArg List.length h0
    simp at this
  · intro hm
    simp only [List.mem_append, List.mem_map, List.mem_cons] at hm
    rcases hm with (((hm | hm) | ⟨p, -, hm⟩) | hm) | ⟨x, -, hm⟩
    · exact hexValue_ne h3 (by omega) hm
    · simp at hm
    · exact column_ne _ _ hm
    · simp at hm
    · exact dumpChar_ne _ hm

theorem dump_lines {b : Bytes} (h : b ≠ []) : ∃ lines : List Str, hexdump b = pyJoin [0x0A] lines ∧
    lines.length = (b.length + 15) / 16 ∧ ∀ j (hj : j < lines.length), IsDumpLine b j lines[j] := by
  have hl : b.length ≠ 0 := fun h0 => h (List.length_eq_zero_iff.mp h0)
  refine ⟨(List.range' 0 ((b.length + 15) / 16 - 0)).map fun j => hexLine (16 * j) ((b.drop (16 * j)).take 16), ?_, ?_, ?_⟩
  · unfold hexdump
    rw [if_neg hl]
    exact hexLines_spec b b.length 0 (by omega) (by omega)
  · simp
  · intro j hj
    simp only [List.length_map, List.length_range'] at hj
    simp only [List.getElem_map, List.getElem_range', Nat.zero_add, Nat.one_mul]
    exact hexLine_spec b j (by omega)

theorem line_inj {a b : Bytes} {j : Nat} {text : Str} (ha : IsDumpLine a j text) (hb : IsDumpLine b j text) :
    slice a (16 * j) (16 * j + 16) = slice b (16 * j) (16 * j + 16) := by
  obtain ⟨x, x1, x2, x3, e⟩ := ha
  obtain ⟨y, y1, y2, y3, e'⟩ := hb
  subst e
  have la : (slice a (16 * j) (16 * j + 16)).length ≤ 16 := by rw [slice_length]; omega
  have lb : (slice b (16 * j) (16 * j + 16)).length ≤ 16 := by rw [slice_length]; omega
  -- the address ends at the first space
  have sp : ∀ {s : Str} {n : Nat}, hexValue s = some n → 0x20 ∉ s := fun h => hexValue_ne h (by omega)
  simp only [List.append_assoc] at e'
  have e'' := append_sep_inj (c := 0x20) (s1 := []) (s2 := []) (sp x3) (sp y3) (by simp) (by simpa using e')
  obtain ⟨rfl, e3⟩ := e''
  simp only [List.cons_append, List.nil_append, List.cons.injEq, true_and] at e3
  have l47 : ∀ line : Bytes, ((List.range 47).map (dumpColumn line)).length = 47 := fun line => by simp
  obtain ⟨e4, e5⟩ := List.append_inj e3 (by rw [l47, l47])
  simp only [List.cons.injEq, true_and] at e5
  have hl := congrArg List.length e5
  rw [List.length_map, List.length_map] at hl
  exact column_inj la lb hl e4

theorem hexdump_inj {a b : Bytes} (h : hexdump a = hexdump b) : a = b := by
  have single : ∀ {b : Bytes}, b ≠ [] → hexdump b ≠ [0x2D] := by
    intro b hb h0
    obtain ⟨lines, e, hlen, hspec⟩ := dump_lines hb
    have hl : b.length ≠ 0 := fun h0 => hb (List.length_eq_zero_iff.mp h0)
    have h1 : 0 < lines.length := by omega
    obtain ⟨address, a1, -, -, e1⟩ := hspec 0 h1
    have hj : ∀ (l : List Str) (h : 0 < l.length), l[0].length ≤ (pyJoin [0x0A] l).length
      | [s], _ => by simp [pyJoin]
      | s :: t :: r, _ => by simp [pyJoin]
    have := hj lines h1
    rw [← e, h0, e1] at this
    simp at this
    omega
  by_cases ha : a = []
  · by_cases hb : b = []
    · rw [ha, hb]
    · rw [ha] at h; exact absurd h.symm (single hb)
  · by_cases hb : b = []
    · rw [hb] at h; exact absurd h (single ha)
    · obtain ⟨la, ea, na, sa⟩ := dump_lines ha
      obtain ⟨lb, eb, nb, sb⟩ := dump_lines hb
      have hl : la = lb := by
        apply pyJoin_inj (c := 0x0A) (s1 := []) (s2 := []) (by simp)
        · intro s hs
          obtain ⟨j, hj, rfl⟩ := List.mem_iff_getElem.mp hs
          exact line_ne (sa j hj)
        · intro s hs
          obtain ⟨j, hj, rfl⟩ := List.mem_iff_getElem.mp hs
          exact line_ne (sb j hj)
        · simpa [ea, eb] using h
      subst hl
      have hs : ∀ j, 16 * j < a.length → slice a (16 * j) (16 * j + 16) = slice b (16 * j) (16 * j + 16) :=
        fun j hj => line_inj (sa j (by omega)) (sb j (by omega))
      have ha' : a.length ≠ 0 := fun h0 => ha (List.length_eq_zero_iff.mp h0)
      have hlen : a.length = b.length := by
        have h1 := congrArg List.length (hs (la.length - 1) (by omega))
        rw [slice_length, slice_length] at h1
        omega
      apply List.ext_getElem hlen
      intro i h1 h2
      have h3 := congrArg (·[i % 16]?) (hs (i / 16) (by omega))
      simp only [slice_getElem?] at h3
      rw [if_pos (by omega), if_pos (by omega), show 16 * (i / 16) + i % 16 = i from by omega,
        List.getElem?_eq_getElem h1, List.getElem?_eq_getElem h2] at h3
      exact Option.some.inj h3

end Verif.Proof.Hexdump
