/-
C60: long names are put together exactly, and only with the right checksum.
-/
import Verif.Props.C61
namespace Verif.Props
open Verif.FAT Verif.Spec.FAT

/-! ### The text of a set of slots -/

theorem slice_cons2 (a b : UInt8) (l : Bytes) (i : Nat) : slice (a :: b :: l) (2 * (i + 1)) (2 * (i + 1) + 2) = slice l (2 * i) (2 * i + 2) := by
  rw [show a :: b :: l = [a, b] ++ l from rfl, slice_append_right _ _ _ _ (by simp; omega)]
  simp only [List.length_cons, List.length_nil]
  rw [show 2 * (i + 1) - 2 = 2 * i by omega, show 2 * (i + 1) + 2 - 2 = 2 * i + 2 by omega]

theorem cutNull_of (units rest : Bytes) (hp : units.length % 2 = 0)
    (hn : ∀ i, i < units.length / 2 → slice units (2 * i) (2 * i + 2) ≠ [0, 0]) (hr : rest = [] ∨ slice rest 0 2 = [0, 0]) :
    cutNull (units ++ rest) = units := by
  match units, hp, hn with
  | [], _, _ =>
    rcases hr with hr | hr
    · subst hr; rfl
    · have h1 := slice_two (i := 0) hr
      match rest, h1 with
      | [], h1 => simp at h1
      | [a], h1 => simp at h1
      | a :: b :: r, h1 =>
        simp only [List.getElem?_cons_zero, Option.some.injEq, Nat.zero_add, List.getElem?_cons_succ] at h1
        rw [List.nil_append, h1.1, h1.2]
        unfold cutNull
        simp
  | [a], hp, _ => simp at hp
  | a :: b :: u, hp, hn =>
    have h0 : slice (a :: b :: u) 0 2 = [a, b] := rfl
    have h1 := hn 0 (by simp only [List.length_cons]; omega)
    have hne : ¬ (a = 0 ∧ b = 0) := by
      rintro ⟨rfl, rfl⟩
      exact h1 h0
    rw [List.cons_append, List.cons_append]
    unfold cutNull
    rw [if_neg hne]
    rw [cutNull_of u rest (by simp only [List.length_cons] at hp; omega) ?_ hr]
    intro i hi
    have := hn (i + 1) (by simp only [List.length_cons]; omega)
    rwa [slice_cons2] at this

theorem cutNull_spec (b : Bytes) (hp : b.length % 2 = 0) : ∃ rest, b = cutNull b ++ rest ∧ (cutNull b).length % 2 = 0 ∧
    (∀ i, i < (cutNull b).length / 2 → slice (cutNull b) (2 * i) (2 * i + 2) ≠ [0, 0]) ∧ (rest = [] ∨ slice rest 0 2 = [0, 0]) := by
  match b, hp with
  | [], _ => exact ⟨[], rfl, rfl, fun i hi => by simp [cutNull] at hi, Or.inl rfl⟩
  | [a], hp => simp at hp
  | x :: y :: l, hp =>
    unfold cutNull
    by_cases h : x = 0 ∧ y = 0
    · rw [if_pos h]
      refine ⟨x :: y :: l, rfl, rfl, fun i hi => by simp at hi, Or.inr ?_⟩
      rw [h.1, h.2]; rfl
    · rw [if_neg h]
      obtain ⟨rest, h1, h2, h3, h4⟩ := cutNull_spec l (by simp only [List.length_cons] at hp; omega)
      refine ⟨rest, by rw [List.cons_append, List.cons_append, ← h1], by simp only [List.length_cons]; omega, ?_, h4⟩
      intro i hi
      cases i with
      | zero =>
        rw [show slice (x :: y :: cutNull l) (2 * 0) (2 * 0 + 2) = [x, y] from rfl]
        intro he
        cases he
        exact h ⟨rfl, rfl⟩
      | succ i =>
        rw [slice_cons2]
        exact h3 i (by simp only [List.length_cons] at hi; omega)

theorem entities_bytes (run : List Bytes) : (run.flatMap longPieces).reverse.flatten = runBytes run := by
  induction run with
  | nil => rfl
  | cons s run ih =>
    unfold runBytes at ih ⊢
    rw [List.flatMap_cons, List.reverse_append, List.flatten_append, ih, List.reverse_cons, List.map_append, List.flatten_append]
    simp [longPieces, unitsOf]

theorem runBytes_even (run : List Bytes) (h : ∀ s ∈ run, s.length = 32) : (runBytes run).length % 2 = 0 := by
  unfold runBytes
  induction run with
  | nil => rfl
  | cons s run ih =>
    rw [List.reverse_cons, List.map_append, List.flatten_append, List.length_append]
    have h1 := ih (fun s hs => h s (by simp [hs]))
    have h2 : ([s].map unitsOf).flatten.length = 26 := by
      have := h s (by simp)
      simp [unitsOf, slice_length_of_le, this]
    omega

/-- What the code makes of the slots in its stash. -/
theorem buildLongName_iff (run : List Bytes) (h : ∀ s ∈ run, s.length = 32) (name : Str) :
    buildLongName (run.flatMap longPieces) = some name ↔ RunText run name := by
  unfold buildLongName RunText
  rw [entities_bytes]
  have heven := runBytes_even run h
  have htake : ∀ l : Str, (if l.length = 0 then (none : Option Str) else if l.length > 255 then some (l.take 255) else some l) = some name ↔
      l ≠ [] ∧ name = l.take 255 := by
    intro l
    by_cases h0 : l.length = 0
    · rw [if_pos h0]
      have : l = [] := List.length_eq_zero_iff.mp h0
      simp [this]
    · rw [if_neg h0]
      have hne : l ≠ [] := fun h => h0 (by rw [h]; rfl)
      by_cases h1 : l.length > 255
      · rw [if_pos h1]; simp [hne, eq_comm]
      · rw [if_neg h1, List.take_of_length_le (by omega)]; simp [hne, eq_comm]
  by_cases h0 : (run.flatMap longPieces).length = 0
  · rw [if_pos h0]
    constructor
    · intro h; cases h
    · rintro ⟨units, rest, h1, _, _, _, h2, _⟩
      exfalso
      have : run = [] := by
        cases run with
        | nil => rfl
        | cons s run => simp [longPieces] at h0
      subst this
      have : units = [] := by
        have := congrArg List.length h1
        simp [runBytes] at this
        exact List.length_eq_zero_iff.mp (by omega)
      subst this
      exact h2 rfl
  · rw [if_neg h0]
    dsimp only
    rw [htake]
    constructor
    · rintro ⟨h1, h2⟩
      obtain ⟨rest, h3, h4, h5, h6⟩ := cutNull_spec (runBytes run) heven
      exact ⟨_, rest, h3, h4, h5, h6, h1, h2⟩
    · rintro ⟨units, rest, h1, h2, h3, h4, h5, h6⟩
      rw [h1, cutNull_of units rest h2 h3 h4]
      exact ⟨h5, h6⟩

/-! ### The stash -/

/-- A set that has got to the number `m`. -/
def PartialRun (checksum m : Nat) : List Bytes → Prop
  | [] => False
  | first :: rest =>
    1 ≤ m ∧ m + rest.length ≤ 20 ∧ u8 first 0 = 0x40 + (m + rest.length) ∧
    rest.map (u8 · 0) = (List.range rest.length).reverse.map (· + m) ∧
    ∀ s ∈ first :: rest, u8 s 13 = checksum

theorem partialRun_one (c : Nat) (run : List Bytes) : PartialRun c 1 run ↔ IsRun c run := by
  cases run with
  | nil => exact Iff.rfl
  | cons first rest =>
    unfold PartialRun IsRun
    dsimp only
    rw [Nat.add_comm 1 rest.length]
    constructor
    · rintro ⟨_, h1, h2, h3, h4⟩; exact ⟨by omega, h2, h3, h4⟩
    · rintro ⟨h1, h2, h3, h4⟩; exact ⟨by omega, by omega, h2, h3, h4⟩

theorem and64_pos {x : Nat} (h : x < 256) : x &&& 0x40 > 0 ↔ 64 ≤ x % 128 := by
  have := and_two_pow_pos x 6
  rw [Nat.testBit_eq_decide_div_mod_eq, decide_eq_true_eq, show 2 ^ 6 = 64 from rfl] at this
  omega

theorem partialRun_snoc {c m : Nat} {run : List Bytes} {s : Bytes} (h : PartialRun c (m + 1) run) (hm : 1 ≤ m) (ho : u8 s 0 = m) (hc : u8 s 13 = c) :
    PartialRun c m (run ++ [s]) := by
  cases run with
  | nil => exact h.elim
  | cons first rest =>
    obtain ⟨_, h1, h2, h3, h4⟩ := h
    rw [List.cons_append]
    unfold PartialRun
    dsimp only
    rw [List.length_append, List.length_singleton]
    refine ⟨hm, by omega, by omega, ?_, ?_⟩
    · rw [List.map_append, h3, List.range_succ_eq_map, List.reverse_cons, List.map_append, ← List.map_reverse, List.map_map]
      simp only [List.map_cons, List.map_nil, ho, Nat.zero_add]
      congr 1
      apply List.map_congr_left
      intro i _
      simp only [Function.comp_apply]
      omega
    · intro x hx
      rw [← List.cons_append, List.mem_append] at hx
      rcases hx with hx | hx
      · exact h4 x hx
      · simp only [List.mem_singleton] at hx
        rw [hx]; exact hc

/-- What the stash is after the slots of `hist`. -/
def Stash (hist : List Bytes) (st : Scan) : Prop :=
  match st.prev with
  | none => st.entities = []
  | some (o, c) => ∃ pre tail, hist = pre ++ tail ∧ (∀ s ∈ tail, isLongSlot s) ∧
      st.entities = (tail.filter (fun s => u8 s 12 = 0)).flatMap longPieces ∧
      (o ∈ [0, 0xE5] ∨ (o ∉ [0, 0xE5] ∧ o < 256 ∧ PartialRun c (realLongOrder o) (tail.filter (fun s => u8 s 12 = 0))))

theorem stash_new {hist : List Bytes} {slot : Bytes} {st : Scan} (hl : isLongSlot slot) (ht : u8 slot 12 = 0)
    (hc : coherent (u8 slot 0) (u8 slot 13) none = true) :
    Stash (hist ++ [slot]) { st with entities := longPieces slot, prev := some (u8 slot 0, u8 slot 13) } := by
  unfold Stash
  dsimp only
  refine ⟨hist, [slot], rfl, by simpa using hl, by simp [ht], ?_⟩
  by_cases hd : u8 slot 0 ∈ [0, 0xE5]
  · exact Or.inl hd
  · right
    have hb := u8_lt slot 0
    unfold coherent at hc
    dsimp only at hc
    rw [if_pos hd, decide_eq_true_eq] at hc
    refine ⟨hd, hb, ?_⟩
    unfold realLongOrder
    rw [if_pos hc.1]
    simp only [ht, decide_true, List.filter_cons_of_pos, List.filter_nil]
    unfold PartialRun
    refine ⟨by omega, by simp; omega, ?_, rfl, by simp⟩
    simp only [List.length_nil]
    omega

theorem stash_long {hist : List Bytes} {slot : Bytes} {st : Scan} (h : Stash hist st) (hl : isLongSlot slot) (ht : u8 slot 12 = 0) :
    Stash (hist ++ [slot]) (longSlot slot st).2 := by
  unfold longSlot
  dsimp only
  by_cases hc : coherent (u8 slot 0) (u8 slot 13) st.prev = true
  · rw [if_neg (by simpa using hc)]
    cases hp : st.prev with
    | none =>
      unfold Stash at h
      rw [hp] at h hc
      dsimp only at h
      rw [h, List.nil_append]
      exact stash_new hl ht hc
    | some p =>
      obtain ⟨o, c⟩ := p
      unfold Stash at h
      rw [hp] at h hc
      dsimp only at h
      obtain ⟨pre, tail, h1, h2, h3, h4⟩ := h
      unfold Stash
      dsimp only
      refine ⟨pre, tail ++ [slot], by rw [h1, List.append_assoc], ?_, ?_, ?_⟩
      · intro s hs
        rw [List.mem_append, List.mem_singleton] at hs
        rcases hs with hs | hs
        · exact h2 s hs
        · rw [hs]; exact hl
      · rw [List.filter_append, List.flatMap_append, h3]
        simp [ht]
      · unfold coherent at hc
        dsimp only at hc
        split at hc
        · rename_i hd; exact Or.inl hd.1
        · split at hc
          · rename_i hd
            rw [decide_eq_true_eq] at hc
            obtain ⟨e1, e2, e3, e4, e5⟩ := hc
            right
            refine ⟨hd.1, u8_lt slot 0, ?_⟩
            rcases h4 with h4 | ⟨_, _, h4⟩
            · exact absurd h4 hd.2
            · rw [e5] at h4
              rw [List.filter_append]
              rw [show realLongOrder (u8 slot 0) = u8 slot 0 by unfold realLongOrder; rw [if_neg (by omega)]]
              simp only [ht, decide_true, List.filter_cons_of_pos, List.filter_nil]
              rw [← e1] at h4
              exact partialRun_snoc h4 (by omega) rfl rfl
          · cases hc
  · rw [if_pos (by simpa using hc)]
    dsimp only
    split
    · rename_i hc'
      exact stash_new hl ht hc'
    · rfl

/-- One round keeps the description of the stash. -/
theorem stash_step {codec : Codec} {isFat32 : Bool} {hist : List Bytes} {slot : Bytes} {st st' : Scan} {items : List Item}
    (hs : slot.length = 32) (h : Stash hist st) (h' : scanSlot codec isFat32 false slot st = .ok (items, st')) : Stash (hist ++ [slot]) st' := by
  unfold scanSlot at h'
  dsimp only at h'
  generalize hst : (if u8 slot 0 = 0x00 then { st with foundNull := true } else st) = st1 at h'
  have h1 : Stash hist st1 := by
    rw [← hst]
    split
    · exact h
    · exact h
  have hattr : u8 slot 11 &&& 0x3F &&& 0x3F = u8 slot 11 % 64 := by rw [attr_mask, attr_mask]; omega
  rw [hattr] at h'
  by_cases hl : u8 slot 11 % 64 = 0x0F
  · rw [if_pos hl] at h'
    simp only [Bool.false_eq_true, if_false] at h'
    by_cases ht : u8 slot 12 ≠ 0
    · rw [if_pos ht] at h'
      cases h'
      unfold Stash at h1 ⊢
      cases hp : st'.prev with
      | none => rw [hp] at h1; exact h1
      | some p =>
        rw [hp] at h1
        obtain ⟨o, c⟩ := p
        dsimp only at h1 ⊢
        obtain ⟨pre, tail, e1, e2, e3, e4⟩ := h1
        refine ⟨pre, tail ++ [slot], by rw [e1, List.append_assoc], ?_, ?_, ?_⟩
        · intro s hs
          rw [List.mem_append, List.mem_singleton] at hs
          rcases hs with hs | hs
          · exact e2 s hs
          · rw [hs]; exact hl
        · rw [List.filter_append]; simp [ht, e3]
        · rw [List.filter_append]; simpa [ht] using e4
    · rw [if_neg ht] at h'
      have := stash_long (slot := slot) h1 hl (by omega)
      have he := Except.ok.inj h'
      rw [he] at this
      exact this
  · rw [if_neg hl] at h'
    obtain ⟨items', h2, _⟩ := shortSlot_files codec isFat32 slot hs st1 (st1.foundNull = true ∧ u8 slot 0 ≠ 0) (by
      rw [← hst]
      by_cases h : u8 slot 0 = 0
      · rw [if_pos h]; simp [h]
      · rw [if_neg h]; simp [h]) hl
    rw [h2] at h'
    cases h'
    rfl

/-- The results and the state after some slots. -/
def scanPrefix (codec : Codec) (isFat32 : Bool) : List Bytes → Scan → Except Exc (List Item × Scan)
  | [], st => .ok ([], st)
  | slot :: l, st =>
    match scanSlot codec isFat32 false slot st with
    | .error e => .error e
    | .ok (items, st) =>
      match scanPrefix codec isFat32 l st with
      | .error e => .error e
      | .ok (more, st) => .ok (items ++ more, st)

theorem scanPrefix_ok {codec : Codec} {isFat32 : Bool} (l : List Bytes) (hl : ∀ s ∈ l, s.length = 32) (hist : List Bytes) (st : Scan) (hst : Stash hist st)
    (afterNull : Prop) (hf : st.foundNull = true ↔ afterNull) :
    ∃ items st', scanPrefix codec isFat32 l st = .ok (items, st') ∧ Stash (hist ++ l) st' ∧ FilesOf codec isFat32 afterNull l (filesIn items) ∧
      (st'.foundNull = true ↔ afterNull ∨ ∃ s ∈ l, u8 s 0 = 0) ∧
      ∀ more, scanSlots codec isFat32 false (l ++ more) st = Gen.append ⟨items, none⟩ (scanSlots codec isFat32 false more st') := by
  induction l generalizing hist st afterNull with
  | nil =>
    refine ⟨[], st, rfl, by rwa [List.append_nil], .nil _, by simpa using hf, ?_⟩
    intro more
    simp [Gen.append]
  | cons slot l ih =>
    obtain ⟨items, st1, h1, h2, h3⟩ := scanSlot_files codec isFat32 false slot (hl slot (by simp)) st afterNull hf
    have hs := stash_step (hl slot (by simp)) hst h1
    obtain ⟨more, st2, g1, g2, g3, g4, g5⟩ := ih (fun s h => hl s (by simp [h])) _ st1 hs _ h2
    refine ⟨items ++ more, st2, ?_, ?_, ?_, ?_, ?_⟩
    · unfold scanPrefix
      rw [h1]
      dsimp only
      rw [g1]
    · rw [List.append_assoc] at g2; exact g2
    · rw [filesIn_append]
      rcases h3 with ⟨h3, h4⟩ | ⟨h3, e, h4, h5⟩
      · rw [h4]; exact .skip h3 g3
      · rw [h4]; exact .list h3 h5 g3
    · rw [g4]
      simp only [List.mem_cons, exists_eq_or_imp]
      rw [or_assoc]
    · intro x
      rw [List.cons_append, scanSlots, h1]
      dsimp only
      rw [g5 x]
      simp [Gen.append]

/-- A set of slots, from some state to the next. -/
theorem follow_run {codec : Codec} {isFat32 : Bool} (c : Nat) (tail : List Bytes) (hlong : ∀ s ∈ tail, isLongSlot s)
    (st : Scan) (o : Nat) (hp : st.prev = some (o, c)) (ho : o ∉ [0, 0xE5]) (rest : List Bytes) (hrest : rest = tail.filter (fun s => u8 s 12 = 0))
    (hlen : rest.length < 20) (hm : realLongOrder o = rest.length + 1)
    (horder : rest.map (u8 · 0) = (List.range rest.length).reverse.map (· + 1)) (hchk : ∀ s ∈ rest, u8 s 13 = c) :
    ∃ items st' o', scanPrefix codec isFat32 tail st = .ok (items, st') ∧ st'.prev = some (o', c) ∧ realLongOrder o' = 1 ∧
      st'.entities = st.entities ++ rest.flatMap longPieces := by
  induction tail generalizing st o rest with
  | nil =>
    simp only [List.filter_nil] at hrest
    subst hrest
    exact ⟨[], st, o, rfl, hp, hm, by simp⟩
  | cons slot tail ih =>
    have hl : u8 slot 11 % 64 = 0x0F := hlong slot (by simp)
    have hattr : u8 slot 11 &&& 0x3F &&& 0x3F = u8 slot 11 % 64 := by rw [attr_mask, attr_mask]; omega
    unfold scanPrefix scanSlot
    dsimp only
    rw [hattr, if_pos hl]
    simp only [Bool.false_eq_true, if_false]
    generalize hst : (if u8 slot 0 = 0x00 then { st with foundNull := true } else st) = st1
    have hp1 : st1.prev = some (o, c) := by rw [← hst]; split <;> exact hp
    have he1 : st1.entities = st.entities := by rw [← hst]; split <;> rfl
    by_cases ht : u8 slot 12 = 0
    · rw [List.filter_cons_of_pos (by simpa using ht)] at hrest
      subst hrest
      rw [if_neg (by omega)]
      simp only [List.length_cons] at hlen hm horder
      rw [List.range_succ, List.reverse_append] at horder
      simp only [List.map_cons, List.reverse_cons, List.reverse_nil, List.nil_append, List.singleton_append, List.cons.injEq] at horder
      obtain ⟨h0, h1⟩ := horder
      have hc : u8 slot 13 = c := hchk slot (by simp)
      have hnd : u8 slot 0 ∉ [0, 0xE5] := by simp; omega
      have hand : ¬ (u8 slot 0 &&& 0x40 > 0) := by rw [and64_pos (u8_lt slot 0)]; omega
      have hcoh : coherent (u8 slot 0) (u8 slot 13) st1.prev = true := by
        rw [hp1]
        unfold coherent
        dsimp only
        rw [if_neg (fun h => hnd h.1), if_pos ⟨hnd, ho⟩, decide_eq_true_eq]
        exact ⟨hc, by omega, by omega, by omega, by rw [hm, h0]⟩
      have hlongSlot : longSlot slot st1 = ([], { st1 with entities := st1.entities ++ longPieces slot, prev := some (u8 slot 0, u8 slot 13) }) := by
        unfold longSlot
        dsimp only
        rw [if_neg (by simpa using hcoh)]
      rw [hlongSlot]
      dsimp only
      obtain ⟨items, st', o', g1, g2, g3, g4⟩ := ih (fun s h => hlong s (by simp [h]))
        { st1 with entities := st1.entities ++ longPieces slot, prev := some (u8 slot 0, u8 slot 13) } (u8 slot 0) (by rw [hc]) hnd _ rfl (by omega)
        (by unfold realLongOrder; rw [if_neg hand, h0]) h1 (fun s h => hchk s (by simp [h]))
      refine ⟨[] ++ items, st', o', ?_, g2, g3, ?_⟩
      · rw [g1]
      · rw [g4, he1, List.flatMap_cons, List.append_assoc]
    · rw [List.filter_cons_of_neg (by simpa using ht)] at hrest
      rw [if_pos ht]
      dsimp only
      obtain ⟨items, st', o', g1, g2, g3, g4⟩ := ih (fun s h => hlong s (by simp [h])) st1 o hp1 ho rest hrest hlen hm horder hchk
      refine ⟨[] ++ items, st', o', ?_, g2, g3, ?_⟩
      · rw [g1]
      · rw [g4, he1]

/-- The first slots of a set start a new stash. -/
theorem start_run {codec : Codec} {isFat32 : Bool} (c : Nat) (tail : List Bytes) (hlong : ∀ s ∈ tail, isLongSlot s)
    (st : Scan) (hst : st.prev = none → st.entities = []) (run : List Bytes) (hrun : run = tail.filter (fun s => u8 s 12 = 0)) (hr : IsRun c run) :
    ∃ items st' o', scanPrefix codec isFat32 tail st = .ok (items, st') ∧ st'.prev = some (o', c) ∧ realLongOrder o' = 1 ∧
      st'.entities = run.flatMap longPieces := by
  induction tail generalizing st with
  | nil =>
    simp only [List.filter_nil] at hrun
    subst hrun
    exact hr.elim
  | cons slot tail ih =>
    have hl : u8 slot 11 % 64 = 0x0F := hlong slot (by simp)
    have hattr : u8 slot 11 &&& 0x3F &&& 0x3F = u8 slot 11 % 64 := by rw [attr_mask, attr_mask]; omega
    unfold scanPrefix scanSlot
    dsimp only
    rw [hattr, if_pos hl]
    simp only [Bool.false_eq_true, if_false]
    generalize hst' : (if u8 slot 0 = 0x00 then { st with foundNull := true } else st) = st1
    have hst1 : st1.prev = none → st1.entities = [] := by rw [← hst']; split <;> exact hst
    by_cases ht : u8 slot 12 = 0
    · rw [List.filter_cons_of_pos (by simpa using ht)] at hrun
      rw [if_neg (by omega)]
      subst hrun
      obtain ⟨h1, h2, h3, h4⟩ := hr
      have hc : u8 slot 13 = c := h4 slot (by simp)
      have hnd : u8 slot 0 ∉ [0, 0xE5] := by simp; omega
      have hand : u8 slot 0 &&& 0x40 > 0 := by rw [and64_pos (u8_lt slot 0)]; omega
      have hnew : coherent (u8 slot 0) (u8 slot 13) none = true := by
        unfold coherent
        dsimp only
        rw [if_pos hnd, decide_eq_true_eq]
        exact ⟨hand, by omega, by omega⟩
      have hlongSlot : ∃ fl, longSlot slot st1 = (fl, { st1 with entities := longPieces slot, prev := some (u8 slot 0, u8 slot 13) }) := by
        unfold longSlot
        dsimp only
        cases hp : st1.prev with
        | none =>
          rw [if_neg (by simpa using hnew)]
          rw [hst1 hp]
          exact ⟨_, rfl⟩
        | some p =>
          obtain ⟨o, c'⟩ := p
          have hcoh : ¬ coherent (u8 slot 0) (u8 slot 13) (some (o, c')) = true := by
            unfold coherent
            dsimp only
            rw [if_neg (fun h => hnd h.1)]
            split
            · rw [decide_eq_true_eq]
              rintro ⟨_, h, _⟩
              omega
            · intro h; cases h
          rw [if_pos hcoh, if_pos hnew]
          exact ⟨_, rfl⟩
      obtain ⟨fl, hlongSlot⟩ := hlongSlot
      rw [hlongSlot]
      dsimp only
      obtain ⟨items, st', o', g1, g2, g3, g4⟩ := follow_run (codec := codec) (isFat32 := isFat32) c tail (fun s h => hlong s (by simp [h]))
        { st1 with entities := longPieces slot, prev := some (u8 slot 0, u8 slot 13) } (u8 slot 0) (by rw [hc]) hnd _ rfl (by omega)
        (by unfold realLongOrder; rw [if_pos hand]; omega) h3 (fun s h => h4 s (by simp [h]))
      refine ⟨fl ++ items, st', o', ?_, g2, g3, ?_⟩
      · rw [g1]
      · rw [g4, List.flatMap_cons]
    · rw [List.filter_cons_of_neg (by simpa using ht)] at hrun
      rw [if_pos ht]
      dsimp only
      obtain ⟨items, st', o', g1, g2, g3, g4⟩ := ih (fun s h => hlong s (by simp [h])) st1 hst1 hrun
      refine ⟨[] ++ items, st', o', ?_, g2, g3, g4⟩
      rw [g1]

theorem scanPrefix_append {codec : Codec} {isFat32 : Bool} (a b : List Bytes) (st : Scan) :
    scanPrefix codec isFat32 (a ++ b) st = match scanPrefix codec isFat32 a st with
      | .error e => .error e
      | .ok (i, st1) => match scanPrefix codec isFat32 b st1 with
        | .error e => .error e
        | .ok (j, st2) => .ok (i ++ j, st2) := by
  induction a generalizing st with
  | nil =>
    rw [List.nil_append, show scanPrefix codec isFat32 [] st = .ok ([], st) from rfl]
    dsimp only
    cases scanPrefix codec isFat32 b st with
    | error e => rfl
    | ok p => rfl
  | cons s a ih =>
    have hc : ∀ l, scanPrefix codec isFat32 (s :: l) st = match scanSlot codec isFat32 false s st with
        | .error e => .error e
        | .ok (items, st) => match scanPrefix codec isFat32 l st with
          | .error e => .error e
          | .ok (more, st) => .ok (items ++ more, st) := fun _ => rfl
    rw [List.cons_append, hc, hc]
    cases scanSlot codec isFat32 false s st with
    | error e => rfl
    | ok p =>
      dsimp only
      rw [ih]
      cases scanPrefix codec isFat32 a p.2 with
      | error e => rfl
      | ok q =>
        dsimp only
        cases scanPrefix codec isFat32 b q.2 with
        | error e => rfl
        | ok r => simp

theorem slots_flatten (l : List Bytes) (h : ∀ s ∈ l, s.length = 32) : slots l.flatten = l := by
  have hlen : ∀ l : List Bytes, (∀ s ∈ l, s.length = 32) → l.flatten.length = 32 * l.length := by
    intro l h
    induction l with
    | nil => rfl
    | cons s l ih =>
      rw [List.flatten_cons, List.length_append, ih (fun s hs => h s (by simp [hs])), h s (by simp), List.length_cons]
      omega
  unfold slots
  rw [hlen l h, Nat.mul_div_cancel_left _ (by omega)]
  induction l with
  | nil => rfl
  | cons s l ih =>
    rw [List.length_cons, List.range_succ_eq_map, List.map_cons, List.map_map, List.flatten_cons]
    have hs := h s (by simp)
    congr 1
    · rw [slice_append_left _ _ _ _ (by omega)]
      exact slice_all (by omega)
    · refine Eq.trans (List.map_congr_left ?_) (ih (fun s hs => h s (by simp [hs])))
      intro i _
      simp only [Function.comp_apply]
      rw [slice_append_right _ _ _ _ (by omega), hs]
      congr 1 <;> omega

theorem stash_belongs {hist : List Bytes} {st : Scan} (h : Stash hist st) {c : Nat} (hb : belongs c st.prev = true) :
    ∃ run, EndsWithRun c hist run ∧ st.entities = run.flatMap longPieces := by
  unfold Stash at h
  unfold belongs at hb
  split at hb
  · cases hb
  · rename_i o c' hp
    rw [hp] at h
    rw [decide_eq_true_eq] at hb
    obtain ⟨rfl, ho⟩ := hb
    dsimp only at h
    obtain ⟨pre, tail, h1, h2, h3, h4⟩ := h
    rcases h4 with h4 | ⟨_, _, h4⟩
    · simp only [List.mem_cons, List.not_mem_nil, or_false] at h4
      rcases h4 with rfl | rfl
      · exact absurd ho (by decide)
      · exact absurd ho (by decide)
    · rw [ho, partialRun_one] at h4
      exact ⟨_, ⟨pre, tail, h1, h2, rfl, h4⟩, h3⟩

/-- C60: the long name of a file that is not deleted (and not a volume label), anywhere in a directory: it has
one exactly when the slots before it end with a complete set of long-name slots that has the checksum of its
short name, and then the name is the text of these slots. -/
theorem C60_long_name (codec : Codec) (isFat32 : Bool) (buf : Bytes) (before after : List Bytes) (slot : Bytes)
    (hbuf : buf = (before ++ slot :: after).flatten) (hlen : ∀ s ∈ before ++ slot :: after, s.length = 32)
    (h512 : 512 ≤ buf.length) (hmod : buf.length % 512 = 0)
    (hlisted : Listed slot) (hdel : u8 slot 0 ≠ 0 ∧ u8 slot 0 ≠ 0xE5) (hkind : kind slot ≠ 1) :
    ∃ items e more, listDirectory codec isFat32 false buf = ⟨items ++ .file e :: more, none⟩ ∧
      FilesOf codec isFat32 False before (filesIn items) ∧
      Describes codec isFat32 slot (∃ s ∈ before, u8 s 0 = 0) e ∧
      ∀ name, e.longName = some name ↔ ∃ run, EndsWithRun (rotateSum 7 (rawName slot)) before run ∧ RunText run name := by
  have hl32 : slot.length = 32 := hlen slot (by simp)
  have hbl : ∀ s ∈ before, s.length = 32 := fun s hs => hlen s (by simp [hs])
  obtain ⟨items, st, p1, p2, p3, p4, p5⟩ := scanPrefix_ok (codec := codec) (isFat32 := isFat32) before hbl [] ⟨[], none, false⟩ rfl False (by simp)
  rw [List.nil_append] at p2
  rw [false_or] at p4
  have hattr : u8 slot 11 &&& 0x3F &&& 0x3F = u8 slot 11 % 64 := by rw [attr_mask, attr_mask]; omega
  obtain ⟨its, s1, s2⟩ := shortSlot_files codec isFat32 slot hl32 st (∃ s ∈ before, u8 s 0 = 0) (by rw [p4]; simp [hdel.1]) hlisted.1
  have hscan : scanSlot codec isFat32 false slot st = .ok (its, { st with entities := [], prev := none }) := by
    unfold scanSlot
    dsimp only
    rw [hattr, if_neg (show ¬ u8 slot 11 % 64 = 0x0F from hlisted.1), if_neg hdel.1]
    exact s1
  rcases s2 with ⟨s2, _⟩ | ⟨_, e, pre, s3, s4, s5, s6⟩
  · exact absurd hlisted s2
  have hall := scanSlots_files codec isFat32 false (before ++ slot :: after) hlen ⟨[], none, false⟩ False (by simp)
  have hlist : listDirectory codec isFat32 false buf = scanSlots codec isFat32 false (before ++ slot :: after) ⟨[], none, false⟩ := by
    unfold listDirectory openDirectory
    rw [if_neg (by omega)]
    dsimp only
    unfold entries
    rw [hbuf, slots_flatten _ hlen]
  rw [hlist]
  have herr := hall.1
  rw [p5] at herr ⊢
  rw [show scanSlots codec isFat32 false (slot :: after) st = Gen.append ⟨its, none⟩ (scanSlots codec isFat32 false after { st with entities := [], prev := none }) by
    rw [scanSlots, hscan]] at herr ⊢
  refine ⟨items ++ pre, e, (scanSlots codec isFat32 false after { st with entities := [], prev := none }).items, ?_, ?_, s5, ?_⟩
  · simp only [Gen.append] at herr ⊢
    rw [herr, s3]
    simp
  · rw [filesIn_append, s4, List.append_nil]
    exact p3
  · intro name
    have hchk : slotChecksum slot = rotateSum 7 (rawName slot) := by unfold slotChecksum; rw [if_neg hkind]
    rw [s6, hchk]
    constructor
    · intro h
      split at h
      · rename_i hb
        rcases hb with hb | hb
        · rcases hb with hb | hb
          · exact absurd hb hdel.1
          · exact absurd hb hdel.2
        · obtain ⟨run, h1, h2⟩ := stash_belongs p2 hb
          refine ⟨run, h1, ?_⟩
          rw [h2] at h
          obtain ⟨pre', tail, e1, _, e3, _⟩ := h1
          exact (buildLongName_iff run (by
            intro s hs
            rw [e3] at hs
            exact hbl s (by rw [e1]; simp [(List.mem_filter.mp hs).1])) name).mp h
      · cases h
    · rintro ⟨run, ⟨pre', tail, e1, e2, e3, e4⟩, hr⟩
      obtain ⟨i0, st0, q1, q2, q3, q4, q5⟩ := scanPrefix_ok (codec := codec) (isFat32 := isFat32) pre' (fun s hs => hbl s (by rw [e1]; simp [hs])) []
        ⟨[], none, false⟩ rfl False (by simp)
      obtain ⟨i1, st1, o, r1, r2, r3, r4⟩ := start_run (codec := codec) (isFat32 := isFat32) (rotateSum 7 (rawName slot)) tail e2 st0 (by
        intro hp
        unfold Stash at q2
        rw [hp] at q2
        exact q2) run e3 e4
      have : st = st1 := by
        have hp := scanPrefix_append (codec := codec) (isFat32 := isFat32) pre' tail ⟨[], none, false⟩
        rw [← e1, p1, q1] at hp
        dsimp only at hp
        rw [r1] at hp
        have := Except.ok.inj hp
        exact congrArg Prod.snd this
      subst this
      rw [if_pos (Or.inr (by unfold belongs; rw [r2]; simp [r3])), r4]
      exact (buildLongName_iff run (by
        intro s hs
        rw [e3] at hs
        exact hbl s (by rw [e1]; simp [(List.mem_filter.mp hs).1])) name).mpr hr

/-! ### Names as a file system writes them -/

theorem natLE_two (v : Nat) (h : v < 65536) : ∃ a b : UInt8, natLE 2 v = [a, b] ∧ a.toNat + 256 * b.toNat = v := by
  refine ⟨_, _, rfl, ?_⟩
  have := leNat_natLE_of_lt (n := 2) (v := v) (by omega)
  simp only [natLE, leNat] at this
  omega

theorem unitBytes_append (a b : List Nat) : unitBytes (a ++ b) = unitBytes a ++ unitBytes b := by
  simp [unitBytes]

theorem unitBytes_length (l : List Nat) : (unitBytes l).length = 2 * l.length := by
  induction l with
  | nil => rfl
  | cons v l ih =>
    rw [show unitBytes (v :: l) = natLE 2 v ++ unitBytes l from rfl, List.length_append, ih, natLE_length, List.length_cons]
    omega

theorem unitBytes_unit (l : List Nat) (i : Nat) (h : i < l.length) : slice (unitBytes l) (2 * i) (2 * i + 2) = natLE 2 l[i] := by
  induction l generalizing i with
  | nil => simp at h
  | cons v l ih =>
    rw [show unitBytes (v :: l) = natLE 2 v ++ unitBytes l from rfl]
    cases i with
    | zero =>
      rw [slice_append_left _ _ _ _ (by rw [natLE_length]; omega), slice_all (by rw [natLE_length]; omega)]
      rfl
    | succ i =>
      rw [slice_append_right _ _ _ _ (by rw [natLE_length]; omega), natLE_length, show 2 * (i + 1) - 2 = 2 * i by omega,
        show 2 * (i + 1) + 2 - 2 = 2 * i + 2 by omega]
      exact ih i (by simpa using h)

theorem encodePoint_units {c : Nat} (h : IsCharacter c) : (∀ u ∈ encodePoint c, u ≠ 0 ∧ u < 65536) ∧ 1 ≤ (encodePoint c).length := by
  obtain ⟨h1, h2, h3⟩ := h
  unfold encodePoint
  split
  · refine ⟨?_, by simp⟩
    simp only [List.mem_singleton, forall_eq]
    omega
  · refine ⟨?_, by simp⟩
    simp only [List.mem_cons, List.not_mem_nil, or_false, forall_eq_or_imp, forall_eq]
    omega

theorem encode_units {s : Str} (h : ∀ c ∈ s, IsCharacter c) : ∀ u ∈ encode s, u ≠ 0 ∧ u < 65536 := by
  intro u hu
  obtain ⟨c, hc, hu⟩ := List.mem_flatMap.mp hu
  exact (encodePoint_units (h c hc)).1 u hu

theorem encode_length {s : Str} (h : ∀ c ∈ s, IsCharacter c) : s.length ≤ (encode s).length := by
  induction s with
  | nil => simp
  | cons c s ih =>
    have h1 := ih (fun c hc => h c (by simp [hc]))
    have h2 := (encodePoint_units (h c (by simp))).2
    rw [show encode (c :: s) = encodePoint c ++ encode s from rfl, List.length_append, List.length_cons]
    omega

/-- Decoding gives back what was encoded. -/
theorem decode_encode {s : Str} (h : ∀ c ∈ s, IsCharacter c) : utf16Decode (unitBytes (encode s)) = s := by
  induction s with
  | nil => rfl
  | cons c s ih =>
    have ih := ih (fun c hc => h c (by simp [hc]))
    obtain ⟨h1, h2, h3⟩ := h c (by simp)
    rw [show encode (c :: s) = encodePoint c ++ encode s from rfl, unitBytes_append]
    unfold encodePoint
    split
    · rename_i hc
      obtain ⟨a, b, e1, e2⟩ := natLE_two c hc
      rw [show unitBytes [c] = natLE 2 c ++ [] from rfl, e1, List.append_nil, List.cons_append, List.cons_append, List.nil_append]
      unfold utf16Decode
      rw [e2, if_neg (by omega), if_neg (by omega), ih]
    · rename_i hc
      obtain ⟨a, b, e1, e2⟩ := natLE_two (0xD800 + (c - 0x10000) / 0x400) (by omega)
      obtain ⟨a', b', e3, e4⟩ := natLE_two (0xDC00 + (c - 0x10000) % 0x400) (by omega)
      rw [show ∀ x y, unitBytes [x, y] = natLE 2 x ++ (natLE 2 y ++ []) from fun _ _ => rfl, e1, e3, List.append_nil]
      simp only [List.cons_append, List.nil_append]
      unfold utf16Decode
      dsimp only
      rw [e2, e4, if_pos (by omega), if_pos (by omega), ih]
      have hval : 0x10000 + (0xD800 + (c - 0x10000) / 0x400 - 0xD800) * 0x400 + (0xDC00 + (c - 0x10000) % 0x400 - 0xDC00) = c := by omega
      rw [hval]

theorem writeLong_fields (c o : Nat) (units : List Nat) (h : units.length = 13) (hc : c < 256) (ho : o < 256) :
    (writeLong c o units).length = 32 ∧ u8 (writeLong c o units) 0 = o ∧ u8 (writeLong c o units) 11 = 0x0F ∧ u8 (writeLong c o units) 12 = 0 ∧
    u8 (writeLong c o units) 13 = c ∧ unitsOf (writeLong c o units) = unitBytes units := by
  have l1 : (unitBytes (units.take 5)).length = 10 := by rw [unitBytes_length, List.length_take]; omega
  have l2 : (unitBytes ((units.drop 5).take 6)).length = 12 := by rw [unitBytes_length, List.length_take, List.length_drop]; omega
  have l3 : (unitBytes ((units.drop 11).take 2)).length = 4 := by rw [unitBytes_length, List.length_take, List.length_drop]; omega
  have hu : unitBytes units = unitBytes (units.take 5) ++ unitBytes ((units.drop 5).take 6) ++ unitBytes ((units.drop 11).take 2) := by
    rw [← unitBytes_append, ← unitBytes_append]
    congr 1
    rw [List.take_of_length_le (l := units.drop 11) (by rw [List.length_drop]; omega), show units.drop 11 = (units.drop 5).drop 6 by rw [List.drop_drop],
      List.append_assoc, List.take_append_drop, List.take_append_drop]
  rw [hu]
  unfold writeLong
  generalize unitBytes (units.take 5) = x at *
  generalize unitBytes ((units.drop 5).take 6) = y at *
  generalize unitBytes ((units.drop 11).take 2) = z at *
  have n1 : (natLE 1 o).length = 1 := natLE_length _ _
  have n2 : (natLE 1 c).length = 1 := natLE_length _ _
  refine ⟨by simp [l1, l2, l3, natLE_length], ?_, ?_, ?_, ?_, ?_⟩
  · unfold u8
    rw [show natLE 1 o ++ x ++ [0x0F, 0] ++ natLE 1 c ++ y ++ [0, 0] ++ z = [] ++ natLE 1 o ++ (x ++ [0x0F, 0] ++ natLE 1 c ++ y ++ [0, 0] ++ z) by simp]
    rw [slice_mid [] _ _ _ _ (by simp) (by simp [n1]), leNat_natLE_of_lt (by omega)]
  · unfold u8
    rw [show natLE 1 o ++ x ++ [0x0F, 0] ++ natLE 1 c ++ y ++ [0, 0] ++ z = (natLE 1 o ++ x) ++ [0x0F] ++ ([0] ++ natLE 1 c ++ y ++ [0, 0] ++ z) by simp]
    rw [slice_mid _ _ _ _ _ (by simp [n1, l1]) (by simp [n1, l1])]
    rfl
  · unfold u8
    rw [show natLE 1 o ++ x ++ [0x0F, 0] ++ natLE 1 c ++ y ++ [0, 0] ++ z = (natLE 1 o ++ x ++ [0x0F]) ++ [0] ++ (natLE 1 c ++ y ++ [0, 0] ++ z) by simp]
    rw [slice_mid _ _ _ _ _ (by simp [n1, l1]) (by simp [n1, l1])]
    rfl
  · unfold u8
    rw [show natLE 1 o ++ x ++ [0x0F, 0] ++ natLE 1 c ++ y ++ [0, 0] ++ z = (natLE 1 o ++ x ++ [0x0F, 0]) ++ natLE 1 c ++ (y ++ [0, 0] ++ z) by simp]
    rw [slice_mid _ _ _ _ _ (by simp [n1, l1]) (by simp [n1, n2, l1]), leNat_natLE_of_lt (by omega)]
  · unfold unitsOf
    congr 1
    · congr 1
      · rw [show natLE 1 o ++ x ++ [0x0F, 0] ++ natLE 1 c ++ y ++ [0, 0] ++ z = natLE 1 o ++ x ++ ([0x0F, 0] ++ natLE 1 c ++ y ++ [0, 0] ++ z) by simp]
        exact slice_mid _ _ _ _ _ (by simp [n1]) (by simp [n1, l1])
      · rw [show natLE 1 o ++ x ++ [0x0F, 0] ++ natLE 1 c ++ y ++ [0, 0] ++ z = (natLE 1 o ++ x ++ [0x0F, 0] ++ natLE 1 c) ++ y ++ ([0, 0] ++ z) by simp]
        exact slice_mid _ _ _ _ _ (by simp [n1, n2, l1]) (by simp [n1, n2, l1, l2])
    · rw [show natLE 1 o ++ x ++ [0x0F, 0] ++ natLE 1 c ++ y ++ [0, 0] ++ z = (natLE 1 o ++ x ++ [0x0F, 0] ++ natLE 1 c ++ y ++ [0, 0]) ++ z ++ [] by simp]
      exact slice_mid _ _ _ _ _ (by simp [n1, n2, l1, l2]) (by simp [n1, n2, l1, l2, l3])

theorem filled_length (units : List Nat) : (filled units).length % 13 = 0 ∧ units.length ≤ (filled units).length ∧ (filled units).length ≤ units.length + 12 := by
  unfold filled
  split
  · omega
  · simp only [List.length_append, List.length_cons, List.length_replicate]
    omega

theorem chunks_flatten {α : Type} (l : List α) (k n : Nat) (h : l.length = k * n) :
    ((List.range n).map fun i => (l.drop (k * i)).take k).flatten = l := by
  induction n generalizing l with
  | zero =>
    have : l = [] := List.length_eq_zero_iff.mp (by omega)
    simp [this]
  | succ n ih =>
    rw [List.range_succ_eq_map, List.map_cons, List.map_map, List.flatten_cons]
    have h1 := ih (l.drop k) (by rw [List.length_drop, h, Nat.mul_succ]; omega)
    have h2 : ((fun i => (l.drop (k * i)).take k) ∘ Nat.succ) = fun i => ((l.drop k).drop (k * i)).take k := by
      funext i
      simp only [Function.comp_apply, List.drop_drop]
      rw [Nat.mul_succ, Nat.add_comm]
    rw [h2, h1, Nat.mul_zero, List.drop_zero, List.take_append_drop]

theorem flatten_unitBytes (l : List (List Nat)) : (l.map unitBytes).flatten = unitBytes l.flatten := by
  induction l with
  | nil => rfl
  | cons a l ih => rw [List.map_cons, List.flatten_cons, ih, List.flatten_cons, unitBytes_append]

/-- The written slots are a set with the text. -/
theorem written_run (c : Nat) (hc : c < 256) (s : Str) (hs : s ≠ []) (hchars : ∀ x ∈ s, IsCharacter x) (hlen : (encode s).length ≤ 255) :
    IsRun c (writeRun c (encode s)) ∧ RunText (writeRun c (encode s)) s ∧
    ∀ slot ∈ writeRun c (encode s), slot.length = 32 ∧ isLongSlot slot ∧ u8 slot 12 = 0 := by
  have hne := encode_length hchars
  have hpos : 0 < s.length := List.length_pos_iff.mpr hs
  obtain ⟨f1, f2, f3⟩ := filled_length (encode s)
  obtain ⟨n, hn⟩ : ∃ n, (filled (encode s)).length = 13 * n := ⟨_, (Nat.mul_div_cancel' (Nat.dvd_of_mod_eq_zero f1)).symm⟩
  have hn0 : 1 ≤ n := by omega
  have hn20 : n ≤ 20 := by omega
  have hdiv : (filled (encode s)).length / 13 = n := by omega
  have hpart : ∀ i, i < n → (((filled (encode s)).drop (13 * i)).take 13).length = 13 := by
    intro i hi
    rw [List.length_take, List.length_drop]
    omega
  have hrun : writeRun c (encode s) = (List.range n).reverse.map fun i =>
      writeLong c (if i + 1 = n then 0x40 + (i + 1) else i + 1) (((filled (encode s)).drop (13 * i)).take 13) := by
    unfold writeRun
    rw [hdiv]
  have hfields : ∀ i, i < n → _ := fun i hi => writeLong_fields c (if i + 1 = n then 0x40 + (i + 1) else i + 1) _ (hpart i hi) hc (by split <;> omega)
  have hall : ∀ slot ∈ writeRun c (encode s), ∃ i, i < n ∧ slot = writeLong c (if i + 1 = n then 0x40 + (i + 1) else i + 1) (((filled (encode s)).drop (13 * i)).take 13) := by
    intro slot hslot
    rw [hrun] at hslot
    obtain ⟨i, hi, h⟩ := List.mem_map.mp hslot
    exact ⟨i, by simpa using hi, h.symm⟩
  refine ⟨?_, ?_, ?_⟩
  · obtain ⟨m, rfl⟩ : ∃ m, n = m + 1 := ⟨n - 1, by omega⟩
    have hcs : ∀ slot ∈ writeRun c (encode s), u8 slot 13 = c := by
      intro slot hslot
      obtain ⟨i, hi, rfl⟩ := hall slot hslot
      exact (hfields i hi).2.2.2.2.1
    rw [hrun, List.range_succ, List.reverse_append, List.reverse_singleton, List.singleton_append, List.map_cons] at hcs ⊢
    unfold IsRun
    dsimp only
    rw [List.length_map, List.length_reverse, List.length_range]
    refine ⟨by omega, ?_, ?_, hcs⟩
    · rw [(hfields m (by omega)).2.1, if_pos rfl]
    · rw [List.map_map]
      apply List.map_congr_left
      intro i hi
      have hi : i < m := by simpa using hi
      simp only [Function.comp_apply]
      rw [(hfields i (by omega)).2.1, if_neg (by omega)]
  · have hbytes : runBytes (writeRun c (encode s)) = unitBytes (filled (encode s)) := by
      unfold runBytes
      rw [hrun, ← List.map_reverse, List.reverse_reverse, List.map_map]
      refine Eq.trans (congrArg List.flatten (List.map_congr_left (g := fun i => unitBytes (((filled (encode s)).drop (13 * i)).take 13)) ?_)) ?_
      · intro i hi
        simp only [Function.comp_apply]
        exact (hfields i (by simpa using hi)).2.2.2.2.2
      · have := flatten_unitBytes ((List.range n).map fun i => ((filled (encode s)).drop (13 * i)).take 13)
        rw [List.map_map, chunks_flatten _ 13 n hn] at this
        exact this
    obtain ⟨rest, hrest, hnull⟩ : ∃ rest, filled (encode s) = encode s ++ rest ∧ (rest = [] ∨ ∃ r, rest = 0 :: r) := by
      unfold filled
      split
      · exact ⟨[], by simp, Or.inl rfl⟩
      · exact ⟨_, rfl, Or.inr ⟨_, rfl⟩⟩
    refine ⟨unitBytes (encode s), unitBytes rest, ?_, ?_, ?_, ?_, ?_, ?_⟩
    · rw [hbytes, hrest, unitBytes_append]
    · rw [unitBytes_length]; omega
    · intro i hi
      rw [unitBytes_length] at hi
      have hi : i < (encode s).length := by omega
      rw [unitBytes_unit _ _ hi]
      obtain ⟨h1, h2⟩ := encode_units hchars _ (List.getElem_mem hi)
      intro h
      have h3 := leNat_natLE_of_lt (n := 2) (v := (encode s)[i]) (by omega)
      rw [h] at h3
      exact h1 h3.symm
    · rcases hnull with rfl | ⟨r, rfl⟩
      · exact Or.inl rfl
      · right; rfl
    · rw [decode_encode hchars]; exact hs
    · rw [decode_encode hchars, List.take_of_length_le (by omega)]
  · intro slot hslot
    obtain ⟨i, hi, rfl⟩ := hall slot hslot
    obtain ⟨h1, _, h3, h4, _⟩ := hfields i hi
    refine ⟨h1, ?_, h4⟩
    unfold isLongSlot
    rw [h3]

/-- C60: the name that was written comes back.  When the slots of a name of at most 255 UTF-16 units, written
for the short name of the file, come directly before its slot, whatever is before them, that is its long name. -/
theorem C60_written (codec : Codec) (isFat32 : Bool) (buf : Bytes) (before after : List Bytes) (slot : Bytes) (s : Str)
    (hs : s ≠ []) (hchars : ∀ c ∈ s, IsCharacter c) (hslen : (encode s).length ≤ 255)
    (hbuf : buf = (before ++ writeRun (rotateSum 7 (rawName slot)) (encode s) ++ slot :: after).flatten)
    (hlen : ∀ s ∈ before ++ slot :: after, s.length = 32)
    (h512 : 512 ≤ buf.length) (hmod : buf.length % 512 = 0)
    (hlisted : Listed slot) (hdel : u8 slot 0 ≠ 0 ∧ u8 slot 0 ≠ 0xE5) (hkind : kind slot ≠ 1) :
    ∃ items e more, listDirectory codec isFat32 false buf = ⟨items ++ .file e :: more, none⟩ ∧
      FilesOf codec isFat32 False (before ++ writeRun (rotateSum 7 (rawName slot)) (encode s)) (filesIn items) ∧
      Describes codec isFat32 slot (∃ s ∈ before, u8 s 0 = 0) e ∧ e.longName = some s := by
  have hc : rotateSum 7 (rawName slot) < 256 := by
    unfold rotateSum
    exact foldl_lt 7 _ (by decide)
  obtain ⟨h1, h2, h3⟩ := written_run (rotateSum 7 (rawName slot)) hc s hs hchars hslen
  obtain ⟨items, e, more, g1, g2, g3, g4⟩ := C60_long_name codec isFat32 buf (before ++ writeRun (rotateSum 7 (rawName slot)) (encode s)) after slot
    hbuf (by
      intro x hx
      simp only [List.mem_append] at hx
      rcases hx with (hx | hx) | hx
      · exact hlen x (by simp [hx])
      · exact (h3 x hx).1
      · exact hlen x (by simp only [List.mem_append]; exact Or.inr hx)) h512 hmod hlisted hdel hkind
  refine ⟨items, e, more, g1, g2, ?_, ?_⟩
  · have : (∃ s' ∈ before ++ writeRun (rotateSum 7 (rawName slot)) (encode s), u8 s' 0 = 0) ↔ ∃ s' ∈ before, u8 s' 0 = 0 := by
      constructor
      · rintro ⟨x, hx, h0⟩
        rw [List.mem_append] at hx
        rcases hx with hx | hx
        · exact ⟨x, hx, h0⟩
        · exfalso
          revert h1 hx
          generalize writeRun (rotateSum 7 (rawName slot)) (encode s) = run
          intro h1 hx
          cases run with
          | nil => exact h1
          | cons first rest =>
            obtain ⟨e1, e2, e3, e4⟩ := h1
            rw [List.mem_cons] at hx
            rcases hx with rfl | hx
            · omega
            · have : u8 x 0 ∈ rest.map (u8 · 0) := List.mem_map.mpr ⟨x, hx, rfl⟩
              rw [e3] at this
              obtain ⟨i, _, hi⟩ := List.mem_map.mp this
              omega
      · rintro ⟨x, hx, h0⟩
        exact ⟨x, by simp [hx], h0⟩
    rw [this] at g3
    exact g3
  · rw [g4]
    refine ⟨_, ⟨before, writeRun (rotateSum 7 (rawName slot)) (encode s), rfl, fun x hx => (h3 x hx).2.1, ?_, h1⟩, h2⟩
    rw [List.filter_eq_self.mpr]
    intro x hx
    simpa using (h3 x hx).2.2

/-- The checksum is not compared for a deleted file: here the set was written for another short name, and the
deleted file gets the name all the same.  This is why the theorems above are about files that are not deleted. -/
theorem C60_deleted_unchecked : ∃ run slot, IsRun 0x42 run ∧ rotateSum 7 (rawName slot) ≠ 0x42 ∧ u8 slot 0 = 0xE5 ∧
    (filesIn (listDirectory ascii false false (run ++ [slot] ++ List.replicate 14 (zeros 32)).flatten).items).map (·.longName) =
      [some (Str.ofString "note")] :=
  ⟨writeRun 0x42 (encode (Str.ofString "note")), 0xE5 :: "OTE    TXT".toList.map (UInt8.ofNat ·.toNat) ++ [0x20, 0] ++ zeros 19,
    (written_run 0x42 (by decide) (Str.ofString "note") (by decide) (by unfold IsCharacter; decide +kernel) (by decide +kernel)).1,
    by decide +kernel, by decide +kernel, by decide +kernel⟩

/-- C58: a set of slots written for one short name is not attached to a file (that is not deleted) whose short
name has one other byte. -/
theorem C58_not_attached (codec : Codec) (isFat32 : Bool) (buf : Bytes) (before after : List Bytes) (slot : Bytes) (written : Bytes)
    (hbuf : buf = (before ++ slot :: after).flatten) (hlen : ∀ s ∈ before ++ slot :: after, s.length = 32)
    (h512 : 512 ≤ buf.length) (hmod : buf.length % 512 = 0)
    (hlisted : Listed slot) (hdel : u8 slot 0 ≠ 0 ∧ u8 slot 0 ≠ 0xE5) (hkind : kind slot ≠ 1)
    (hwritten : ∃ pre last, before = pre ++ [last] ∧ isLongSlot last ∧ u8 last 12 = 0 ∧ u8 last 13 = rotateSum 7 written)
    (hdiff : ∃ i, i < 11 ∧ written.length = 11 ∧ written[i]? ≠ (rawName slot)[i]? ∧ ∀ j, j ≠ i → written[j]? = (rawName slot)[j]?) :
    ∃ items e more, listDirectory codec isFat32 false buf = ⟨items ++ .file e :: more, none⟩ ∧
      FilesOf codec isFat32 False before (filesIn items) ∧ Describes codec isFat32 slot (∃ s ∈ before, u8 s 0 = 0) e ∧ e.longName = none := by
  obtain ⟨items, e, more, g1, g2, g3, g4⟩ := C60_long_name codec isFat32 buf before after slot hbuf hlen h512 hmod hlisted hdel hkind
  refine ⟨items, e, more, g1, g2, g3, ?_⟩
  cases hn : e.longName with
  | none => rfl
  | some name =>
    exfalso
    obtain ⟨run, ⟨pre', tail, e1, e2, e3, e4⟩, _⟩ := (g4 name).mp hn
    obtain ⟨pre, last, w1, w2, w3, w4⟩ := hwritten
    have hlast : last ∈ run := by
      rw [e3]
      refine List.mem_filter.mpr ⟨?_, by simpa using w3⟩
      rcases List.eq_nil_or_concat tail with h | ⟨t, x, h⟩
      · subst h
        rw [List.filter_nil] at e3
        subst e3
        exact e4.elim
      · rw [h, w1, List.concat_eq_append, ← List.append_assoc] at e1
        have := (List.append_inj' e1 rfl).2
        rw [h]
        simp only [List.cons.injEq, and_true] at this
        simp [this]
    have hsum : u8 last 13 = rotateSum 7 (rawName slot) := by
      cases run with
      | nil => exact e4.elim
      | cons first rest => exact e4.2.2.2 last hlast
    rw [w4] at hsum
    obtain ⟨i, hi, hw, hne, heq⟩ := hdiff
    have hraw : (rawName slot).length = 11 := rawName_length (hlen slot (by simp))
    obtain ⟨pre1, post1, x, y, d1, d2, d3, d4, _⟩ := differ_at (by omega) (by omega) heq
    rw [d1, d2] at hsum
    exact rotateSum_detects (by omega) pre1 post1 (fun hxy => hne (by rw [d3, d4, hxy])) hsum

/-- The short name of a file, and a long name of two slots for it. -/
def sampleShort : Bytes := "HELLOW~1TXT".toList.map (UInt8.ofNat ·.toNat) ++ [0x20, 0] ++ zeros 13 ++ natLE 2 5 ++ natLE 4 700

def sampleLong : Bytes := (writeRun (rotateSum 7 (rawName sampleShort)) (encode (Str.ofString "Hello, world 😀.txt"))).flatten ++ sampleShort ++ zeros 416

/-- The file gets its long name; when the first byte of the short name is another one, it gets none and the name
is left as an orphan. -/
example : (filesIn (listDirectory ascii false false sampleLong).items).map (fun e => (e.shortName, e.longName)) =
      [(Str.ofString "HELLOW~1.TXT", some (Str.ofString "Hello, world 😀.txt"))] ∧
    sampleLong.length = 512 ∧ Listed sampleShort ∧ kind sampleShort ≠ 1 ∧ (∀ c ∈ Str.ofString "Hello, world 😀.txt", IsCharacter c) ∧
    (filesIn (listDirectory ascii false false (sampleLong.set 64 0x4A)).items).map (fun e => (e.shortName, e.longName)) =
      [(Str.ofString "JELLOW~1.TXT", none)] := by
  refine ⟨by decide +kernel, by decide +kernel, ?_, by decide +kernel, ?_, by decide +kernel⟩
  · refine ⟨by unfold isLongSlot; decide +kernel, by decide +kernel, ?_, ⟨0x48, by decide +kernel, by decide⟩, ⟨0x48, by decide +kernel, by decide⟩⟩
    unfold GoodName
    rw [if_neg (by decide +kernel)]
    right; right
    refine ⟨0x48, "ELLOW~1TXT".toList.map (UInt8.ofNat ·.toNat), by decide +kernel, by decide +kernel, ?_, by decide +kernel⟩
    unfold ValidFirst; decide +kernel
  · unfold IsCharacter; decide +kernel

end Verif.Props
