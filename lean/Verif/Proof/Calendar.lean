/-
Lemmas about the calendar and about timestamps as text.
-/
import Verif.Model.Scripts.Text
import Verif.Spec.Text
namespace Verif.Proof.Calendar
open Verif.Scripts Verif.Spec.Text

/-! ### The calendar -/

theorem leap_periods {a b c d : Nat} (hb : b < 4) (hc : c < 25) (hd : d < 4) :
    leap (400 * a + 100 * b + 4 * c + d + 1) ↔ d = 3 ∧ (c ≠ 24 ∨ b = 3) := by
  unfold leap
  have h4 : (400 * a + 100 * b + 4 * c + d + 1) % 4 = (d + 1) % 4 := by omega
  have h100 : (400 * a + 100 * b + 4 * c + d + 1) % 100 = (4 * c + d + 1) % 100 := by omega
  have h400 : (400 * a + 100 * b + 4 * c + d + 1) % 400 = (100 * b + 4 * c + d + 1) % 400 := by omega
  rw [h4, h100, h400]
  omega

theorem daysToYear_periods (y : Nat) : ∀ {a b c d : Nat}, b < 4 → c < 25 → d < 4 → y = 400 * a + 100 * b + 4 * c + d →
    daysToYear (y + 1) = 146097 * a + 36524 * b + 1461 * c + 365 * d := by
  induction y with
  | zero =>
    intro a b c d hb hc hd h
    have : a = 0 ∧ b = 0 ∧ c = 0 ∧ d = 0 := by omega
    obtain ⟨rfl, rfl, rfl, rfl⟩ := this
    rfl
  | succ y ih =>
    intro a b c d hb hc hd h
    rw [daysToYear, yearLength]
    by_cases h1 : d = 0
    · by_cases h2 : c = 0
      · by_cases h3 : b = 0
        · have hy : y = 400 * (a - 1) + 100 * 3 + 4 * 24 + 3 := by omega
          have hl := (leap_periods (a := a - 1) (b := 3) (c := 24) (d := 3) (by omega) (by omega) (by omega)).mpr ⟨rfl, .inr rfl⟩
          rw [← hy] at hl
          rw [ih (by omega) (by omega) (by omega) hy, if_pos hl]
          omega
        · have hy : y = 400 * a + 100 * (b - 1) + 4 * 24 + 3 := by omega
          have hl := leap_periods (a := a) (b := b - 1) (c := 24) (d := 3) (by omega) (by omega) (by omega)
          rw [← hy] at hl
          rw [ih (by omega) (by omega) (by omega) hy, if_neg (fun hx => by have := hl.mp hx; omega)]
          omega
      · have hy : y = 400 * a + 100 * b + 4 * (c - 1) + 3 := by omega
        have hl := (leap_periods (a := a) (b := b) (c := c - 1) (d := 3) (by omega) (by omega) (by omega)).mpr ⟨rfl, .inl (by omega)⟩
        rw [← hy] at hl
        rw [ih (by omega) (by omega) (by omega) hy, if_pos hl]
        omega
    · have hy : y = 400 * a + 100 * b + 4 * c + (d - 1) := by omega
      have hl := leap_periods (a := a) (b := b) (c := c) (d := d - 1) (by omega) (by omega) (by omega)
      rw [← hy] at hl
      rw [ih (by omega) (by omega) (by omega) hy, if_neg (fun hx => by have := hl.mp hx; omega)]
      omega

/-- A year of the same kind. -/
def like (l : Bool) : Nat := if l then 4 else 1

theorem leap_like (l : Bool) : leap (like l) ↔ l = true := by cases l <;> decide

theorem monthLength_like {y : Nat} {l : Bool} (h : leap y ↔ l = true) (m : Nat) : monthLength y m = monthLength (like l) m := by
  unfold monthLength
  have : leap y ↔ leap (like l) := h.trans (leap_like l).symm
  simp only [this]

theorem daysToMonth_like {y : Nat} {l : Bool} (h : leap y ↔ l = true) : ∀ m, daysToMonth y m = daysToMonth (like l) m
  | 0 => rfl
  | 1 => rfl
  | m + 2 => by rw [daysToMonth, daysToMonth, daysToMonth_like h (m + 1), monthLength_like h]

theorem yearLength_like {y : Nat} {l : Bool} (h : leap y ↔ l = true) : yearLength y = yearLength (like l) := by
  unfold yearLength
  have : leap y ↔ leap (like l) := h.trans (leap_like l).symm
  simp only [this]

/-- The month and the day of the code, from the number of days since the first day of the year. -/
def monthPart (l : Bool) (n : Nat) : Nat × Nat :=
  let month := (n + 50) / 32
  let preceding := daysBeforeMonth.getD month 0 + (if month > 2 ∧ l then 1 else 0)
  if preceding > n then
    let month := month - 1
    let preceding := preceding - (daysInMonth.getD month 0 + (if month = 2 ∧ l then 1 else 0))
    (month, n - preceding + 1)
  else (month, n - preceding + 1)

theorem monthPart_spec : ∀ l : Bool, ∀ n < 365, 1 ≤ (monthPart l n).1 ∧ (monthPart l n).1 ≤ 12 ∧ 1 ≤ (monthPart l n).2 ∧
    (monthPart l n).2 ≤ monthLength (like l) (monthPart l n).1 ∧
    daysToMonth (like l) (monthPart l n).1 + ((monthPart l n).2 - 1) = n := by
  decide +kernel

theorem ord2ymd_spec (n : Nat) : validDay (ord2ymd n).year (ord2ymd n).month (ord2ymd n).day ∧
    dayNumber (ord2ymd n).year (ord2ymd n).month (ord2ymd n).day = n := by
  generalize ha : n / 146097 = a
  generalize hr : n % 146097 = r
  generalize hb : r / 36524 = b
  generalize hr1 : r % 36524 = r1
  generalize hc : r1 / 1461 = c
  generalize hr2 : r1 % 1461 = r2
  generalize hd : r2 / 365 = d
  generalize hk : r2 % 365 = k
  have e : ord2ymd n = (if d = 4 ∨ b = 4 then ⟨a * 400 + 1 + b * 100 + c * 4 + d - 1, 12, 31⟩
      else ⟨a * 400 + 1 + b * 100 + c * 4 + d, (monthPart (decide (d = 3 ∧ (c ≠ 24 ∨ b = 3))) k).1,
        (monthPart (decide (d = 3 ∧ (c ≠ 24 ∨ b = 3))) k).2⟩) := by
    subst hk hd hr2 hc hr1 hb hr ha
    unfold ord2ymd monthPart
    dsimp only
    by_cases h : n % 146097 % 36524 % 1461 / 365 = 4 ∨ n % 146097 / 36524 = 4
    · rw [if_pos h, if_pos h]
    · rw [if_neg h, if_neg h]
      by_cases h' : daysBeforeMonth.getD ((n % 146097 % 36524 % 1461 % 365 + 50) / 32) 0 +
          (if (n % 146097 % 36524 % 1461 % 365 + 50) / 32 > 2 ∧ decide (n % 146097 % 36524 % 1461 / 365 = 3 ∧
            (n % 146097 % 36524 / 1461 ≠ 24 ∨ n % 146097 / 36524 = 3)) = true then 1 else 0) > n % 146097 % 36524 % 1461 % 365
      · rw [if_pos h', if_pos h']
      · rw [if_neg h', if_neg h']
  rw [e]
  have hn : n = 146097 * a + 36524 * b + 1461 * c + 365 * d + k := by omega
  have hb4 : b ≤ 4 := by omega
  have hc24 : c ≤ 24 := by omega
  have hd4 : d ≤ 4 := by omega
  have hk' : k < 365 := by omega
  have hbc : b = 4 → c = 0 ∧ d = 0 ∧ k = 0 := by omega
  have hdk : d = 4 → k = 0 ∧ c < 24 := by omega
  clear e ha hr hb hr1 hc hr2 hd hk
  by_cases h : d = 4 ∨ b = 4
  · rw [if_pos h]
    dsimp only
    have hp : ∃ b' c', b' < 4 ∧ c' < 25 ∧ (c' ≠ 24 ∨ b' = 3) ∧ 100 * b + 4 * c + d - 1 = 100 * b' + 4 * c' + 3 ∧
        n = 146097 * a + 36524 * b' + 1461 * c' + 365 * 3 + 365 := by
      rcases h with h | h
      · exact ⟨b, c, by omega, by omega, .inl (by omega), by omega, by omega⟩
      · exact ⟨3, 24, by omega, by omega, .inr rfl, by omega, by omega⟩
    obtain ⟨b', c', hb', hc', hl, hy, hn'⟩ := hp
    have hy' : a * 400 + 1 + b * 100 + c * 4 + d - 1 = 400 * a + 100 * b' + 4 * c' + 3 + 1 := by omega
    rw [hy']
    have hleap : leap (400 * a + 100 * b' + 4 * c' + 3 + 1) ↔ true = true :=
      ⟨fun _ => rfl, fun _ => (leap_periods hb' hc' (by omega)).mpr ⟨rfl, hl⟩⟩
    refine ⟨⟨by omega, by omega, by omega, by omega, ?_⟩, ?_⟩
    · rw [monthLength_like hleap]; decide
    · unfold dayNumber
      rw [daysToYear_periods _ hb' hc' (by omega) rfl, daysToMonth_like hleap]
      have : daysToMonth (like true) 12 = 335 := by decide
      omega
  · rw [if_neg h]
    dsimp only
    have hy' : a * 400 + 1 + b * 100 + c * 4 + d = 400 * a + 100 * b + 4 * c + d + 1 := by omega
    rw [hy']
    have hl : leap (400 * a + 100 * b + 4 * c + d + 1) ↔ decide (d = 3 ∧ (c ≠ 24 ∨ b = 3)) = true := by
      rw [decide_eq_true_eq]; exact leap_periods (by omega) (by omega) (by omega)
    obtain ⟨h1, h2, h3, h4, h5⟩ := monthPart_spec (decide (d = 3 ∧ (c ≠ 24 ∨ b = 3))) k (by omega)
    refine ⟨⟨by omega, h1, h2, h3, by rw [monthLength_like hl]; exact h4⟩, ?_⟩
    unfold dayNumber
    rw [daysToYear_periods _ (by omega : b < 4) (by omega : c < 25) (by omega : d < 4) rfl, daysToMonth_like hl]
    omega

theorem months (l : Bool) : ∀ m < 13, ∀ m' < 13, 1 ≤ m → 
    daysToMonth (like l) m + monthLength (like l) m ≤ yearLength (like l) ∧
    (m < m' → daysToMonth (like l) m + monthLength (like l) m ≤ daysToMonth (like l) m') := by
  cases l <;> decide +kernel

theorem daysToYear_mono {y y' : Nat} (h1 : 1 ≤ y) (h : y ≤ y') : daysToYear y ≤ daysToYear y' := by
  induction h with
  | refl => exact Nat.le_refl _
  | step h ih =>
    obtain ⟨k, rfl⟩ : ∃ k, _ = k + 1 := ⟨_ - 1, (Nat.sub_add_cancel (Nat.le_trans h1 h)).symm⟩
    rw [daysToYear]; omega

theorem dayNumber_lt_next {y m d : Nat} (h : validDay y m d) : dayNumber y m d < daysToYear (y + 1) := by
  obtain ⟨h1, h2, h3, h4, h5⟩ := h
  obtain ⟨k, rfl⟩ : ∃ k, y = k + 1 := ⟨y - 1, by omega⟩
  have hl : leap (k + 1) ↔ decide (leap (k + 1)) = true := decide_eq_true_iff.symm
  have := (months (decide (leap (k + 1))) m (by omega) m (by omega) h2).1
  rw [← daysToMonth_like hl, ← monthLength_like hl, ← yearLength_like hl] at this
  unfold dayNumber
  rw [daysToYear]; omega

theorem dayNumber_lt_of_lex {y m d y' m' d' : Nat} (h : validDay y m d) (h' : validDay y' m' d')
    (hl : y < y' ∨ (y = y' ∧ (m < m' ∨ (m = m' ∧ d < d')))) : dayNumber y m d < dayNumber y' m' d' := by
  rcases hl with hl | ⟨rfl, hl | ⟨rfl, hl⟩⟩
  · have h1 := dayNumber_lt_next h
    have h2 : daysToYear (y + 1) ≤ daysToYear y' := daysToYear_mono (by omega) (by omega)
    have h3 : dayNumber y' m' d' = daysToYear y' + daysToMonth y' m' + (d' - 1) := rfl
    omega
  · have hy : leap y ↔ decide (leap y) = true := decide_eq_true_iff.symm
    obtain ⟨h1, h2, h3, h4, h5⟩ := h
    obtain ⟨-, -, h3', h4', h5'⟩ := h'
    have := (months (decide (leap y)) m (by omega) m' (by omega) h2).2 hl
    rw [← daysToMonth_like hy, ← monthLength_like hy, ← daysToMonth_like hy] at this
    unfold dayNumber; omega
  · obtain ⟨h1, h2, h3, h4, h5⟩ := h
    unfold dayNumber; omega

theorem dayNumber_lt_iff {y m d y' m' d' : Nat} (h : validDay y m d) (h' : validDay y' m' d') :
    dayNumber y m d < dayNumber y' m' d' ↔ (y < y' ∨ (y = y' ∧ (m < m' ∨ (m = m' ∧ d < d')))) := by
  refine ⟨fun hl => ?_, dayNumber_lt_of_lex h h'⟩
  apply Decidable.byContradiction
  intro hn
  by_cases he : y = y' ∧ m = m' ∧ d = d'
  · obtain ⟨rfl, rfl, rfl⟩ := he; omega
  · have := dayNumber_lt_of_lex h' h (by omega)
    omega

/-! ### Digits -/

theorem fixedDec_length : ∀ w n, (fixedDec w n).length = w
  | 0, _ => rfl
  | w + 1, n => by rw [fixedDec, List.length_append, fixedDec_length w]; rfl

theorem decimalValue_fixedDec : ∀ w n, n < 10 ^ w → decimalValue (fixedDec w n) = some n
  | 0, n, h => by simp at h; subst h; rfl
  | w + 1, n, h => by
    have ih := decimalValue_fixedDec w (n / 10) (by rw [Nat.pow_succ] at h; omega)
    unfold decimalValue at ih ⊢
    rw [fixedDec, List.foldl_append, ih]
    simp only [List.foldl_cons, List.foldl_nil, Option.bind_some]
    rw [if_pos (by omega), Nat.add_sub_cancel_left]
    congr 1; omega

theorem fixedDec_inj {w m n : Nat} (hm : m < 10 ^ w) (hn : n < 10 ^ w) (h : fixedDec w m = fixedDec w n) : m = n := by
  have h1 := decimalValue_fixedDec w m hm
  rw [h, decimalValue_fixedDec w n hn] at h1
  exact (Option.some.inj h1).symm

theorem Before_append : ∀ {a b : Str} (x y : Str), a.length = b.length → (Before (a ++ x) (b ++ y) ↔ (Before a b ∨ (a = b ∧ Before x y)))
  | [], [], x, y, _ => by simp [Before]
  | [], _ :: _, _, _, h => by simp at h
  | _ :: _, [], _, _, h => by simp at h
  | c :: a, d :: b, x, y, h => by
    have ih := Before_append (a := a) (b := b) x y (by simpa using h)
    simp only [List.cons_append, Before, ih, List.cons.injEq]
    by_cases h1 : c = d
    · simp [h1]
    · simp [h1]

theorem Before_singleton (a b : Nat) : Before [a] [b] ↔ a < b := by simp [Before]

theorem Before_irrefl : ∀ a, ¬ Before a a
  | [] => by simp [Before]
  | c :: a => by simp [Before, Before_irrefl a]

theorem Before_fixedDec : ∀ w m n, m < 10 ^ w → n < 10 ^ w → (Before (fixedDec w m) (fixedDec w n) ↔ m < n)
  | 0, m, n, hm, hn => by simp at hm hn; subst hm hn; simp [fixedDec, Before]
  | w + 1, m, n, hm, hn => by
    have hm' : m / 10 < 10 ^ w := by rw [Nat.pow_succ] at hm; omega
    have hn' : n / 10 < 10 ^ w := by rw [Nat.pow_succ] at hn; omega
    rw [fixedDec, fixedDec, Before_append _ _ (by rw [fixedDec_length, fixedDec_length]), Before_fixedDec w _ _ hm' hn', Before_singleton]
    have : fixedDec w (m / 10) = fixedDec w (n / 10) ↔ m / 10 = n / 10 :=
      ⟨fixedDec_inj hm' hn', fun h => by rw [h]⟩
    rw [this]; omega

/-! ### Timestamps -/

/-- 10000-01-01 00:00:00, the end of the range of `datetime`. -/
theorem year_lt {n : Nat} (h : n < 3652059) : (ord2ymd n).year < 10000 := by
  have ⟨h1, h2⟩ := ord2ymd_spec n
  apply Decidable.byContradiction
  intro hy
  have h3 : daysToYear 10000 ≤ daysToYear (ord2ymd n).year := daysToYear_mono (by omega) (by omega)
  have h4 : daysToYear 10000 = 3652059 := daysToYear_periods 9999 (a := 24) (b := 3) (c := 24) (d := 3) (by omega) (by omega) (by omega) (by omega)
  unfold dayNumber at h2
  omega

theorem month_lt (n : Nat) : (ord2ymd n).month < 10 ^ 2 := by
  have := (ord2ymd_spec n).1.2.2.1; omega

theorem day_lt (n : Nat) : (ord2ymd n).day < 10 ^ 2 := by
  have := (ord2ymd_spec n).1.2.2.2.2
  unfold monthLength at this
  repeat' split at this
  all_goals omega

theorem split_time (t : Nat) : t = ((((t / 86400000000 * 24) + t / 3600000000 % 24) * 60 + t / 60000000 % 60) * 60 + t / 1000000 % 60) * 1000000 + t % 1000000 := by
  omega

theorem strftime_denotes {t : Nat} (h : t < 3652059 * 86400000000) : Denotes (strftime t) t := by
  have hy : (ord2ymd (t / 86400000000)).year < 10 ^ 4 := year_lt (by omega)
  refine ⟨_, _, _, _, _, _, _, _, _, _, _, _, _, _, rfl, fixedDec_length _ _, fixedDec_length _ _, fixedDec_length _ _,
    fixedDec_length _ _, fixedDec_length _ _, fixedDec_length _ _, fixedDec_length _ _,
    decimalValue_fixedDec _ _ hy, decimalValue_fixedDec _ _ (month_lt _), decimalValue_fixedDec _ _ (day_lt _),
    decimalValue_fixedDec _ _ (by omega), decimalValue_fixedDec _ _ (by omega), decimalValue_fixedDec _ _ (by omega),
    decimalValue_fixedDec _ _ (by omega), (ord2ymd_spec _).1, by omega, by omega, by omega, by omega, ?_⟩
  rw [(ord2ymd_spec _).2]
  exact split_time t

theorem lex_digits {k q r q' r' : Nat} (h : r < k) (h' : r' < k) : q * k + r < q' * k + r' ↔ (q < q' ∨ (q = q' ∧ r < r')) := by
  constructor
  · intro hl
    by_cases hq : q = q'
    · subst hq; exact .inr ⟨rfl, by omega⟩
    · refine .inl (Decidable.byContradiction fun hn => ?_)
      have : (q' + 1) * k ≤ q * k := Nat.mul_le_mul_right k (by omega)
      rw [Nat.add_mul] at this
      omega
  · rintro (hl | ⟨rfl, hl⟩)
    · have : (q + 1) * k ≤ q' * k := Nat.mul_le_mul_right k (by omega)
      rw [Nat.add_mul] at this
      omega
    · omega

theorem lt_iff_lex (t u : Nat) : t < u ↔ (t / 86400000000 < u / 86400000000 ∨ (t / 86400000000 = u / 86400000000 ∧
    (t / 3600000000 % 24 < u / 3600000000 % 24 ∨ (t / 3600000000 % 24 = u / 3600000000 % 24 ∧
    (t / 60000000 % 60 < u / 60000000 % 60 ∨ (t / 60000000 % 60 = u / 60000000 % 60 ∧
    (t / 1000000 % 60 < u / 1000000 % 60 ∨ (t / 1000000 % 60 = u / 1000000 % 60 ∧ t % 1000000 < u % 1000000)))))))) := by
  have h1 := lex_digits (k := 24) (q := t / 86400000000) (q' := u / 86400000000)
    (Nat.mod_lt (t / 3600000000) (by omega)) (Nat.mod_lt (u / 3600000000) (by omega))
  have h2 := lex_digits (k := 60) (q := t / 3600000000) (q' := u / 3600000000)
    (Nat.mod_lt (t / 60000000) (by omega)) (Nat.mod_lt (u / 60000000) (by omega))
  have h3 := lex_digits (k := 60) (q := t / 60000000) (q' := u / 60000000)
    (Nat.mod_lt (t / 1000000) (by omega)) (Nat.mod_lt (u / 1000000) (by omega))
  have h4 := lex_digits (k := 1000000) (q := t / 1000000) (q' := u / 1000000)
    (Nat.mod_lt t (by omega)) (Nat.mod_lt u (by omega))
  have e : ∀ x : Nat, x / 1000000 * 1000000 + x % 1000000 = x := fun x => by omega
  have e1 : ∀ x : Nat, x / 60000000 * 60 + x / 1000000 % 60 = x / 1000000 := fun x => by omega
  have e2 : ∀ x : Nat, x / 3600000000 * 60 + x / 60000000 % 60 = x / 60000000 := fun x => by omega
  have e3 : ∀ x : Nat, x / 86400000000 * 24 + x / 3600000000 % 24 = x / 3600000000 := fun x => by omega
  have f1 : ∀ x y : Nat, x / 1000000 = y / 1000000 ↔ (x / 60000000 = y / 60000000 ∧ x / 1000000 % 60 = y / 1000000 % 60) :=
    fun x y => by have := e1 x; have := e1 y; omega
  have f2 : ∀ x y : Nat, x / 60000000 = y / 60000000 ↔ (x / 3600000000 = y / 3600000000 ∧ x / 60000000 % 60 = y / 60000000 % 60) :=
    fun x y => by have := e2 x; have := e2 y; omega
  have f3 : ∀ x y : Nat, x / 3600000000 = y / 3600000000 ↔ (x / 86400000000 = y / 86400000000 ∧ x / 3600000000 % 24 = y / 3600000000 % 24) :=
    fun x y => by have := e3 x; have := e3 y; omega
  rw [e, e] at h4
  rw [e1, e1] at h3
  rw [e2, e2] at h2
  rw [e3, e3] at h1
  rw [h4, h3, h2, h1, f1, f2, f3]
  clear h1 h2 h3 h4 e e1 e2 e3 f1 f2 f3
  generalize t / 86400000000 = a1
  generalize u / 86400000000 = b1
  generalize t / 3600000000 % 24 = a2
  generalize u / 3600000000 % 24 = b2
  generalize t / 60000000 % 60 = a3
  generalize u / 60000000 % 60 = b3
  generalize t / 1000000 % 60 = a4
  generalize u / 1000000 % 60 = b4
  generalize t % 1000000 = a5
  generalize u % 1000000 = b5
  omega

theorem strftime_before {t u : Nat} (ht : t < 3652059 * 86400000000) (hu : u < 3652059 * 86400000000) :
    Before (strftime t) (strftime u) ↔ t < u := by
  have hyt : (ord2ymd (t / 86400000000)).year < 10 ^ 4 := year_lt (by omega)
  have hyu : (ord2ymd (u / 86400000000)).year < 10 ^ 4 := year_lt (by omega)
  have ⟨vt, nt⟩ := ord2ymd_spec (t / 86400000000)
  have ⟨vu, nu⟩ := ord2ymd_spec (u / 86400000000)
  have mt := month_lt (t / 86400000000)
  have mu := month_lt (u / 86400000000)
  have dt := day_lt (t / 86400000000)
  have du := day_lt (u / 86400000000)
  have hlex := dayNumber_lt_iff vt vu
  have hlex' := dayNumber_lt_iff vu vt
  rw [nt, nu] at hlex hlex'
  have h1 : t / 3600000000 % 24 < 10 ^ 2 := by omega
  have h2 : u / 3600000000 % 24 < 10 ^ 2 := by omega
  have h3 : t / 60000000 % 60 < 10 ^ 2 := by omega
  have h4 : u / 60000000 % 60 < 10 ^ 2 := by omega
  have h5 : t / 1000000 % 60 < 10 ^ 2 := by omega
  have h6 : u / 1000000 % 60 < 10 ^ 2 := by omega
  have h7 : t % 1000000 < 10 ^ 6 := by omega
  have h8 : u % 1000000 < 10 ^ 6 := by omega
  unfold strftime
  dsimp only
  generalize ord2ymd (t / 86400000000) = D at *
  generalize ord2ymd (u / 86400000000) = E at *
  have inj : ∀ {w m n : Nat}, m < 10 ^ w → n < 10 ^ w → (fixedDec w m = fixedDec w n ↔ m = n) :=
    fun hm hn => ⟨fixedDec_inj hm hn, fun h => by rw [h]⟩
  simp only [List.append_assoc]
  rw [Before_append _ _ (by simp only [fixedDec_length]), Before_append _ _ rfl, Before_append _ _ (by simp only [fixedDec_length]),
    Before_append _ _ rfl, Before_append _ _ (by simp only [fixedDec_length]), Before_append _ _ rfl,
    Before_append _ _ (by simp only [fixedDec_length]), Before_append _ _ rfl, Before_append _ _ (by simp only [fixedDec_length]),
    Before_append _ _ rfl, Before_append _ _ (by simp only [fixedDec_length]), Before_append _ _ rfl,
    Before_fixedDec _ _ _ hyt hyu, Before_fixedDec _ _ _ mt mu, Before_fixedDec _ _ _ dt du, Before_fixedDec _ _ _ h1 h2,
    Before_fixedDec _ _ _ h3 h4, Before_fixedDec _ _ _ h5 h6, Before_fixedDec _ _ _ h7 h8,
    inj hyt hyu, inj mt mu, inj dt du, inj h1 h2, inj h3 h4, inj h5 h6]
  simp only [Before_irrefl, false_or, true_and]
  rw [lt_iff_lex t u]
  clear inj h1 h2 h3 h4 h5 h6 h7 h8 ht hu nt nu vt vu hyt hyu mt mu dt du
  generalize (t / 3600000000 % 24 < u / 3600000000 % 24 ∨ _) = X
  by_cases hX : X
  · simp only [hX, and_true]; omega
  · simp only [hX, and_false, or_false]; omega

end Verif.Proof.Calendar
