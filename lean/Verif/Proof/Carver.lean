import Verif.Spec.Carver
namespace Verif.MFT
open Verif.Spec.Carver Verif.Attributes

theorem goodFiletime_iff (t : Nat) : goodFiletime t = true ↔ Plausible t := by
  unfold goodFiletime Plausible filetimeMin filetimeMax
  rw [decide_eq_true_iff]

theorem u64_slice (page : Bytes) (p k : Nat) (hk : k + 8 ≤ 32) : u64 (slice page p (p + 32)) k = word page (p + k) := by
  unfold u64 word
  rw [slice_slice _ _ _ _ _ (by omega)]
  rfl

theorem hasTimes_iff (page : Bytes) (q d : Nat) : HasTimes page q d ↔
    (slice page (q + d) (q + d + 32)).length = 32 ∧ goodFiletimes (slice page (q + d) (q + d + 32)) = true := by
  unfold goodFiletimes
  simp only [Bool.and_eq_true, goodFiletime_iff, u64_slice page (q + d) 0 (by omega), u64_slice page (q + d) 8 (by omega),
    u64_slice page (q + d) 16 (by omega), u64_slice page (q + d) 24 (by omega)]
  rw [slice_length]
  unfold HasTimes
  constructor
  · rintro ⟨h1, h2⟩
    exact ⟨by omega, ⟨⟨h2 0 (by omega), h2 1 (by omega)⟩, h2 2 (by omega)⟩, h2 3 (by omega)⟩
  · rintro ⟨h1, ⟨⟨h2, h3⟩, h4⟩, h5⟩
    refine ⟨by omega, ?_⟩
    intro k hk
    match k, hk with
    | 0, _ => exact h2
    | 1, _ => exact h3
    | 2, _ => exact h4
    | 3, _ => exact h5

theorem hasAtime_iff (page : Bytes) (q a : Nat) : HasAtime page q a ↔
    (slice page (q + a) (q + a + 8)).length = 8 ∧ goodFiletime (leNat (slice page (q + a) (q + a + 8))) = true := by
  rw [goodFiletime_iff, slice_length]
  unfold HasAtime word
  constructor
  · rintro ⟨h1, h2⟩; exact ⟨by omega, h2⟩
  · rintro ⟨h1, h2⟩; exact ⟨by omega, h2⟩

theorem signed_iff (page : Bytes) (q : Nat) : Signed page q ↔ slice page q (q + 2) = [0x02, 0x07] := by
  constructor
  · rintro ⟨h1, h2⟩
    apply List.ext_getElem?
    intro i
    rw [slice_getElem?]
    match i with
    | 0 => rw [if_pos (by omega)]; exact h1
    | 1 => rw [if_pos (by omega)]; exact h2
    | i + 2 => rw [if_neg (by omega)]; rfl
  · exact slice_two

theorem searchTimes_some {page : Bytes} {q pos d : Nat} (h : searchTimes page q pos = some d) (he : pos % 2 = 0) :
    pos ≤ d ∧ d < 144 ∧ d % 2 = 0 ∧ HasTimes page q d ∧ ∀ d', pos ≤ d' → d' < d → d' % 2 = 0 → ¬ HasTimes page q d' := by
  fun_induction searchTimes page q pos with
  | case1 => cases h
  | case2 pos hp buf hl hg =>
    cases h
    exact ⟨Nat.le_refl _, hp.2, he, (hasTimes_iff _ _ _).2 ⟨Classical.not_not.1 hl, hg⟩, fun d' h1 h2 => by omega⟩
  | case3 pos hp buf hl hg ih =>
    obtain ⟨i1, i2, i3, i4, i5⟩ := ih h (by omega)
    refine ⟨by omega, i2, i3, i4, ?_⟩
    intro d' h1 h2 h3
    by_cases hd : d' = pos
    · subst hd
      intro hc
      exact hg ((hasTimes_iff _ _ _).1 hc).2
    · exact i5 d' (by omega) h2 h3
  | case4 => cases h

theorem searchTimes_none {page : Bytes} {q pos : Nat} (h : searchTimes page q pos = none) (he : pos % 2 = 0) :
    ∀ d, pos ≤ d → d < 144 → d % 2 = 0 → ¬ HasTimes page q d := by
  fun_induction searchTimes page q pos with
  | case1 pos hp buf hl =>
    intro d h1 h2 h3 hc
    have := hc.1
    have hb : buf.length = min (q + pos + 32 - (q + pos)) (page.length - (q + pos)) := slice_length _ _ _
    omega
  | case2 => cases h
  | case3 pos hp buf hl hg ih =>
    intro d h1 h2 h3
    by_cases hd : d = pos
    · subst hd
      intro hc
      exact hg ((hasTimes_iff _ _ _).1 hc).2
    · exact ih h (by omega) d (by omega) h2 h3
  | case4 pos hp =>
    intro d h1 h2 h3 hc
    have := hc.1
    omega

theorem searchAtime_some {page : Bytes} {q pos a : Nat} (h : searchAtime page q pos = some a) (he : pos % 2 = 0) :
    pos ≤ a ∧ a < 208 ∧ a % 2 = 0 ∧ HasAtime page q a ∧ ∀ a', pos ≤ a' → a' < a → a' % 2 = 0 → ¬ HasAtime page q a' := by
  fun_induction searchAtime page q pos with
  | case1 => cases h
  | case2 pos hp buf hl hg =>
    cases h
    exact ⟨Nat.le_refl _, hp.2, he, (hasAtime_iff _ _ _).2 ⟨Classical.not_not.1 hl, hg⟩, fun d' h1 h2 => by omega⟩
  | case3 pos hp buf hl hg ih =>
    obtain ⟨i1, i2, i3, i4, i5⟩ := ih h (by omega)
    refine ⟨by omega, i2, i3, i4, ?_⟩
    intro d' h1 h2 h3
    by_cases hd : d' = pos
    · subst hd
      intro hc
      exact hg ((hasAtime_iff _ _ _).1 hc).2
    · exact i5 d' (by omega) h2 h3
  | case4 => cases h

theorem searchAtime_none {page : Bytes} {q pos : Nat} (h : searchAtime page q pos = none) (he : pos % 2 = 0) :
    ∀ a, pos ≤ a → a < 208 → a % 2 = 0 → ¬ HasAtime page q a := by
  fun_induction searchAtime page q pos with
  | case1 pos hp buf hl =>
    intro d h1 h2 h3 hc
    have := hc.1
    have hb : buf.length = min (q + pos + 8 - (q + pos)) (page.length - (q + pos)) := slice_length _ _ _
    omega
  | case2 => cases h
  | case3 pos hp buf hl hg ih =>
    intro d h1 h2 h3
    by_cases hd : d = pos
    · subst hd
      intro hc
      exact hg ((hasAtime_iff _ _ _).1 hc).2
    · exact ih h (by omega) d (by omega) h2 h3
  | case4 pos hp =>
    intro d h1 h2 h3 hc
    have := hc.1
    omega

theorem locate_found {guess : Option (Nat × Nat)} {page : Bytes} {q d a : Nat} (hs : Signed page q)
    (h : locate guess page q = .found d a) : Block guess page q d a := by
  unfold locate at h
  cases guess with
  | none =>
    dsimp only at h
    split at h
    · cases h
    rename_i d' hd
    split at h
    · cases h
    rename_i a' ha
    cases h
    obtain ⟨-, h1, h2, h3, h4⟩ := searchTimes_some hd rfl
    obtain ⟨k0, k1, k2, k3, k4⟩ := searchAtime_some ha (by omega)
    exact ⟨hs, h3, k3, ⟨h1, h2, fun d' h => h4 d' (by omega) h⟩, k0, k1, k2, k4⟩
  | some g =>
    obtain ⟨d', a'⟩ := g
    dsimp only at h
    split at h
    · cases h
    rename_i h1
    split at h
    · cases h
    rename_i h2
    split at h
    · rename_i h3
      cases h
      exact ⟨hs, (hasTimes_iff _ _ _).2 ⟨Classical.not_not.1 h1, Classical.not_not.1 h2⟩, (hasAtime_iff _ _ _).2 h3, rfl, rfl⟩
    · cases h

theorem locate_missing {guess : Option (Nat × Nat)} {page : Bytes} {q d a : Nat} (h : locate guess page q = .missing) :
    ¬ Block guess page q d a := by
  rintro ⟨-, h3, k3, hg⟩
  unfold locate at h
  cases guess with
  | none =>
    obtain ⟨⟨h1, h2, h4⟩, k0, k1, k2, k4⟩ := hg
    dsimp only at h
    split at h
    · rename_i hd
      exact searchTimes_none hd rfl d (by omega) h1 h2 h3
    rename_i d' hd
    split at h
    · rename_i ha
      obtain ⟨-, e1, e2, e3, e4⟩ := searchTimes_some hd rfl
      have : d' = d := by
        rcases Nat.lt_trichotomy d' d with hlt | heq | hgt
        · exact absurd e3 (h4 d' hlt e2)
        · exact heq
        · exact absurd h3 (e4 d (by omega) hgt h2)
      subst this
      exact searchAtime_none ha (by omega) a k0 k1 k2 k3
    · cases h
  | some g =>
    obtain ⟨d', a'⟩ := g
    obtain ⟨rfl, rfl⟩ := hg
    dsimp only at h
    split at h
    · cases h
    split at h
    · rename_i h2
      exact h2 ((hasTimes_iff _ _ _).1 h3).2
    split at h
    · cases h
    · rename_i h4
      exact h4 ((hasAtime_iff _ _ _).1 k3)

theorem locate_truncated {guess : Option (Nat × Nat)} {page : Bytes} {q : Nat} (h : locate guess page q = .truncated) :
    ∀ p d a, q ≤ p → ¬ Block guess page p d a := by
  rintro p d a hp ⟨-, h3, -, hg⟩
  unfold locate at h
  cases guess with
  | none =>
    dsimp only at h
    split at h
    · cases h
    split at h <;> cases h
  | some g =>
    obtain ⟨d', a'⟩ := g
    obtain ⟨rfl, rfl⟩ := hg
    dsimp only at h
    split at h
    · rename_i h1
      rw [slice_length] at h1
      have := h3.1
      omega
    split at h
    · cases h
    split at h <;> cases h

/-- Guessed positions that keep the scan at even offsets, and the reference inside of the block. -/
def Usable (guess : Option (Nat × Nat)) : Prop := ∀ d a, guess = some (d, a) → a % 2 = 0 ∧ 8 ≤ a

theorem block_usable {guess : Option (Nat × Nat)} (hu : Usable guess) {page : Bytes} {q d a : Nat} (h : Block guess page q d a) :
    a % 2 = 0 ∧ 8 ≤ a := by
  obtain ⟨-, -, -, hg⟩ := h
  cases guess with
  | none => exact ⟨hg.2.2.2.1, by have := hg.2.1; omega⟩
  | some g =>
    obtain ⟨d', a'⟩ := g
    obtain ⟨rfl, rfl⟩ := hg
    exact hu _ _ rfl

theorem blocks_skip {guess : Option (Nat × Nat)} {page : Bytes} {q : Nat} (he : q % 2 = 0) (hn : ∀ d a, ¬ Block guess page q d a)
    {l : List (Nat × Nat × Nat)} (h : Blocks guess page (q + 2) l) : Blocks guess page q l := by
  have key : ∀ p d a, q ≤ p → p < q + 2 → p % 2 = 0 → ¬ Block guess page p d a := by
    intro p d a h1 h2 h3
    have : p = q := by omega
    subst this
    exact hn d a
  cases h with
  | none h =>
    refine .none ?_
    intro p d a h1 h2
    by_cases hp : p < q + 2
    · exact key p d a h1 hp h2
    · exact h p d a (by omega) h2
  | some hq heven hb hfirst hrest =>
    refine .some (by omega) heven hb ?_ hrest
    intro p d a h1 h2 h3
    by_cases hp : p < q + 2
    · exact key p d a h1 hp h3
    · exact hfirst p d a (by omega) h2 h3

theorem scanPage_blocks {guess : Option (Nat × Nat)} (hu : Usable guess) (base : Nat) (page : Bytes) (q : Nat) (he : q % 2 = 0) :
    ∃ blocks, Blocks guess page q blocks ∧ scanPage guess base page q = ⟨blocks.map (report base page), none⟩ := by
  fun_induction scanPage guess base page q with
  | case1 q hq hs ih =>
    obtain ⟨bs, h1, h2⟩ := ih (by omega)
    exact ⟨bs, blocks_skip (h := h1) he (fun d a hb => hs ((signed_iff _ _).1 hb.1)), h2⟩
  | case2 q hq hs hl =>
    exact ⟨[], .none (fun p d a hp _ => locate_truncated hl p d a hp), rfl⟩
  | case3 q hq hs hl ih =>
    obtain ⟨bs, h1, h2⟩ := ih (by omega)
    exact ⟨bs, blocks_skip (h := h1) he (fun d a => locate_missing hl), h2⟩
  | case4 q hq hs d a hl e hr =>
    exfalso
    have hb := locate_found ((signed_iff _ _).2 (Classical.not_not.1 hs)) hl
    have hua := block_usable hu hb
    have hlen := hb.2.2.1.1
    unfold unpackLE at hr
    rw [if_pos (by rw [slice_length]; omega)] at hr
    cases hr
  | case5 q hq hs d a hl r hr buf times ih =>
    have hb := locate_found ((signed_iff _ _).2 (Classical.not_not.1 hs)) hl
    have hua := block_usable hu hb
    obtain ⟨bs, h1, h2⟩ := ih (by omega)
    refine ⟨(q, d, a) :: bs, .some (Nat.le_refl _) he hb (fun p d a h1 h2 => by omega) h1, ?_⟩
    rw [h2]
    have hr' : r = word page (q + 8) := by
      unfold unpackLE at hr
      split at hr
      · cases hr; rfl
      · cases hr
    have ht : times = report base page (q, d, a) := by
      show FCBTimestamps.mk _ _ _ _ _ _ _ _ = _
      unfold report
      rw [u64_slice page (q + d) 0 (by omega), u64_slice page (q + d) 8 (by omega), u64_slice page (q + d) 16 (by omega),
        u64_slice page (q + d) 24 (by omega), hr']
      rfl
    rw [ht]
    rfl
  | case6 q hq =>
    refine ⟨[], .none ?_, rfl⟩
    intro p d a hp _ hb
    have := hb.2.1.1
    omega

theorem scanImage_reported {guess : Option (Nat × Nat)} (hu : Usable guess) (image : Bytes) (base : Nat) :
    ∃ l, Reported guess image base l ∧ scanImage guess image base = ⟨l, none⟩ := by
  fun_induction scanImage guess image base with
  | case1 base hb page hl =>
    have : page.length = min (base + 4096 - base) (image.length - base) := slice_length _ _ _
    exact ⟨[], .stop (by omega), rfl⟩
  | case2 base hb page hl ih =>
    have : page.length = min (base + 4096 - base) (image.length - base) := slice_length _ _ _
    obtain ⟨l, h1, h2⟩ := ih
    obtain ⟨bs, h3, h4⟩ := scanPage_blocks hu base page 0 rfl
    refine ⟨_, .page (by omega) h3 h1, ?_⟩
    rw [h4, h2]
    rfl
  | case3 base hb => exact ⟨[], .stop (by omega), rfl⟩

/-! ### The specification determines the result -/

theorem block_unique {guess : Option (Nat × Nat)} {page : Bytes} {q d a d' a' : Nat} (h : Block guess page q d a)
    (h' : Block guess page q d' a') : d = d' ∧ a = a' := by
  obtain ⟨-, h1, h2, hg⟩ := h
  obtain ⟨-, k1, k2, kg⟩ := h'
  cases guess with
  | some g =>
    obtain ⟨x, y⟩ := g
    exact ⟨hg.1.trans kg.1.symm, hg.2.trans kg.2.symm⟩
  | none =>
    obtain ⟨⟨-, e1, e2⟩, b1, b2, b3, b4⟩ := hg
    obtain ⟨⟨-, f1, f2⟩, c1, c2, c3, c4⟩ := kg
    have hd : d = d' := by
      rcases Nat.lt_trichotomy d d' with hlt | heq | hgt
      · exact absurd h1 (f2 d hlt e1)
      · exact heq
      · exact absurd k1 (e2 d' hgt f1)
    subst hd
    refine ⟨rfl, ?_⟩
    rcases Nat.lt_trichotomy a a' with hlt | heq | hgt
    · exact absurd h2 (c4 a b1 hlt b3)
    · exact heq
    · exact absurd k2 (b4 a' c1 hgt c3)

theorem blocks_unique {guess : Option (Nat × Nat)} {page : Bytes} {q : Nat} {l l' : List (Nat × Nat × Nat)} (h : Blocks guess page q l)
    (h' : Blocks guess page q l') : l = l' := by
  induction h generalizing l' with
  | none hn =>
    cases h' with
    | none => rfl
    | some hq heven hb => exact absurd hb (hn _ _ _ hq heven)
  | @some q p d a rest hq heven hb hfirst hrest ih =>
    cases h' with
    | none hn => exact absurd hb (hn _ _ _ hq heven)
    | @some _ p' d' a' rest' hq' heven' hb' hfirst' hrest' =>
      have hp : p = p' := by
        rcases Nat.lt_trichotomy p p' with hlt | heq | hgt
        · exact absurd hb (hfirst' _ _ _ hq hlt heven)
        · exact heq
        · exact absurd hb' (hfirst _ _ _ hq' hgt heven')
      subst hp
      obtain ⟨rfl, rfl⟩ := block_unique hb hb'
      rw [ih hrest']

theorem reported_unique {guess : Option (Nat × Nat)} {image : Bytes} {base : Nat} {l l' : List FCBTimestamps} (h : Reported guess image base l)
    (h' : Reported guess image base l') : l = l' := by
  induction h generalizing l' with
  | stop hs =>
    cases h' with
    | stop => rfl
    | page hp => omega
  | page hp hb hrest ih =>
    cases h' with
    | stop => omega
    | page hp' hb' hrest' => rw [blocks_unique hb hb', ih hrest']

/-! ### The most frequent positions -/

/-- The elements in the order of their first occurrence. -/
def firsts (l : List Nat) : List Nat := l.foldl (fun acc x => if x ∈ acc then acc else acc ++ [x]) []

theorem firsts_snoc (l : List Nat) (x : Nat) : firsts (l ++ [x]) = if x ∈ firsts l then firsts l else firsts l ++ [x] := by
  unfold firsts
  rw [List.foldl_append]
  rfl

theorem snoc_induction {α : Type} {p : List α → Prop} (h0 : p []) (hs : ∀ l x, p l → p (l ++ [x])) (l : List α) : p l := by
  rw [← l.reverse_reverse]
  induction l.reverse with
  | nil => exact h0
  | cons x xs ih => rw [List.reverse_cons]; exact hs _ _ ih

theorem mem_firsts (l : List Nat) (y : Nat) : y ∈ firsts l ↔ y ∈ l := by
  induction l using snoc_induction with
  | h0 => simp [firsts]
  | hs l x ih =>
    rw [firsts_snoc]
    split
    · rename_i h
      rw [List.mem_append, List.mem_singleton, ih]
      constructor
      · exact .inl
      · rintro (h' | rfl)
        · exact h'
        · exact ih.1 h
    · rw [List.mem_append, List.mem_append, ih]

theorem nodup_firsts (l : List Nat) : (firsts l).Nodup := by
  induction l using snoc_induction with
  | h0 => simp [firsts]
  | hs l x ih =>
    rw [firsts_snoc]
    split
    · exact ih
    · rename_i h
      rw [List.nodup_append]
      refine ⟨ih, by simp, ?_⟩
      intro a ha b hb
      rw [List.mem_singleton] at hb
      subst hb
      intro hc
      subst hc
      exact h ha

theorem increment_new {x : Nat} {ks : List Nat} {c : Nat → Nat} (h : x ∉ ks) :
    increment x (ks.map fun k => (k, c k)) = (ks.map fun k => (k, c k)) ++ [(x, 1)] := by
  induction ks with
  | nil => rfl
  | cons k ks ih =>
    rw [List.map_cons]
    unfold increment
    rw [if_neg (fun hc => h (by simp [hc])), ih (fun hc => h (by simp [hc]))]
    rfl

theorem increment_old {x : Nat} {ks : List Nat} (hn : ks.Nodup) {c : Nat → Nat} (h : x ∈ ks) :
    increment x (ks.map fun k => (k, c k)) = ks.map fun k => (k, if k = x then c k + 1 else c k) := by
  induction ks with
  | nil => cases h
  | cons k ks ih =>
    obtain ⟨n1, n2⟩ := List.nodup_cons.1 hn
    rw [List.map_cons, List.map_cons]
    unfold increment
    by_cases hk : k = x
    · subst hk
      rw [if_pos rfl, if_pos rfl]
      congr 1
      apply List.map_congr_left
      intro y hy
      rw [if_neg (fun hc => n1 (by rw [← hc]; exact hy))]
    · rw [if_neg hk, if_neg hk, ih n2 ((List.mem_cons.1 h).resolve_left (fun hc => hk hc.symm))]

theorem countPositions_eq (l : List Nat) : countPositions l = (firsts l).map fun k => (k, l.count k) := by
  induction l using snoc_induction with
  | h0 => rfl
  | hs l x ih =>
    have h1 : countPositions (l ++ [x]) = increment x (countPositions l) := by
      unfold countPositions
      rw [List.foldl_append]
      rfl
    rw [h1, ih, firsts_snoc]
    split
    · rename_i h
      rw [increment_old (nodup_firsts l) h]
      apply List.map_congr_left
      intro k _
      rw [List.count_append, List.count_singleton]
      by_cases hk : k = x
      · subst hk; simp
      · rw [if_neg hk, if_neg (by simpa using fun hc => hk hc.symm)]
        rfl
    · rename_i h
      rw [increment_new h, List.map_append]
      have hx : x ∉ l := fun hc => h ((mem_firsts _ _).2 hc)
      congr 1
      · apply List.map_congr_left
        intro k hk
        rw [List.count_append, List.count_singleton, if_neg (by
          simp only [beq_iff_eq]
          intro hc
          subst hc
          exact h hk)]
        rfl
      · simp [List.count_eq_zero.2 hx]

theorem mostFrequent_split {d : List (Nat × Nat)} {k n : Nat} (h : mostFrequent d = some (k, n)) :
    ∃ pre post, d = pre ++ (k, n) :: post ∧ (∀ x ∈ pre, x.2 < n) ∧ ∀ x ∈ post, x.2 ≤ n := by
  induction d generalizing k n with
  | nil => cases h
  | cons y rest ih =>
    obtain ⟨k0, n0⟩ := y
    unfold mostFrequent at h
    split at h
    · rename_i hr
      cases h
      have : rest = [] := by
        cases rest with
        | nil => rfl
        | cons z zs =>
          exfalso
          obtain ⟨kz, nz⟩ := z
          unfold mostFrequent at hr
          split at hr
          · cases hr
          · split at hr <;> cases hr
      subst this
      exact ⟨[], [], rfl, by simp, by simp⟩
    · rename_i k' n' hr
      obtain ⟨pre, post, h1, h2, h3⟩ := ih hr
      split at h
      · rename_i hlt
        cases h
        refine ⟨(k0, n0) :: pre, post, by rw [h1]; rfl, ?_, h3⟩
        intro x hx
        rcases List.mem_cons.1 hx with rfl | hx
        · exact hlt
        · exact h2 x hx
      · rename_i hlt
        cases h
        refine ⟨[], rest, rfl, by simp, ?_⟩
        rw [h1]
        intro x hx
        rcases List.mem_append.1 hx with hx | hx
        · have := h2 x hx; omega
        · rcases List.mem_cons.1 hx with rfl | hx
          · dsimp only; omega
          · have := h3 x hx; omega

theorem firsts_split {l A B : List Nat} {k : Nat} (h : firsts l = A ++ k :: B) : ∃ p s, l = p ++ k :: s ∧ ∀ x ∈ p, x ∈ A := by
  induction l using snoc_induction generalizing B with
  | h0 => cases A <;> cases h
  | hs l x ih =>
    rw [firsts_snoc] at h
    split at h
    · obtain ⟨p, s, h1, h2⟩ := ih h
      exact ⟨p, s ++ [x], by rw [h1, List.append_assoc]; rfl, h2⟩
    · rcases List.eq_nil_or_concat B with rfl | ⟨B', y, rfl⟩
      · obtain ⟨h1, h2⟩ := List.append_inj' h rfl
        cases h2
        exact ⟨l, [], rfl, fun y hy => by rw [← h1]; exact (mem_firsts _ _).2 hy⟩
      · rw [List.concat_eq_append, ← List.cons_append, ← List.append_assoc] at h
        obtain ⟨h1, -⟩ := List.append_inj' h rfl
        obtain ⟨p, s, h3, h4⟩ := ih h1
        exact ⟨p, s ++ [x], by rw [h3, List.append_assoc]; rfl, h4⟩

theorem mostFrequent_spec {l : List Nat} (hne : l ≠ []) :
    ∃ k, mostFrequent (countPositions l) = some (k, l.count k) ∧ MostFrequent l k := by
  cases h : mostFrequent (countPositions l) with
  | none =>
    exfalso
    cases l with
    | nil => exact hne rfl
    | cons y ys =>
      have hm : (y, (y :: ys).count y) ∈ countPositions (y :: ys) := by
        rw [countPositions_eq]
        exact List.mem_map.2 ⟨y, (mem_firsts _ _).2 (by simp), rfl⟩
      cases hd : countPositions (y :: ys) with
      | nil => rw [hd] at hm; cases hm
      | cons z zs =>
        rw [hd] at h
        obtain ⟨kz, nz⟩ := z
        unfold mostFrequent at h
        split at h
        · cases h
        · split at h <;> cases h
  | some kn =>
    obtain ⟨k, n⟩ := kn
    obtain ⟨pre, post, h1, h2, h3⟩ := mostFrequent_split h
    rw [countPositions_eq] at h1
    obtain ⟨A, B', e1, e2, e3⟩ := List.map_eq_append_iff.1 h1
    obtain ⟨k', B, f1, f2, f3⟩ := List.map_eq_cons_iff.1 e3
    cases f2
    rw [f1] at e1
    have hpre : ∀ x ∈ A, l.count x < l.count k := by
      intro x hx
      exact h2 (x, l.count x) (by rw [← e2]; exact List.mem_map.2 ⟨x, hx, rfl⟩)
    refine ⟨k, rfl, ?_, ?_⟩
    · intro x
      by_cases hx : x ∈ l
      · have hx' := (mem_firsts _ _).2 hx
        rw [e1] at hx'
        rcases List.mem_append.1 hx' with hx' | hx'
        · exact Nat.le_of_lt (hpre x hx')
        · rcases List.mem_cons.1 hx' with rfl | hx'
          · exact Nat.le_refl _
          · exact h3 (x, l.count x) (by rw [← f3]; exact List.mem_map.2 ⟨x, hx', rfl⟩)
      · rw [List.count_eq_zero.2 hx]; omega
    · obtain ⟨p, s, g1, g2⟩ := firsts_split e1
      exact ⟨p, s, g1, fun x hx => hpre x (g2 x hx)⟩

end Verif.MFT
