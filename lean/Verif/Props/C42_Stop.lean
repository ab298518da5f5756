/-
C42: where a read of a shadow copy stops.
-/
import Verif.Props.C42_C43
namespace Verif.Props
open Verif.ShadowCopy Verif.Spec.Shadow

attribute [local irreducible] roundUp shadowSize

theorem readSource_end {img : Image} {x : Source} {d : Bytes} (h : readSource img x = .ok d) (hd : d.length < 512) : sourceByte img x d.length = none := by
  have key : ∀ (f : Bytes) (base o : Nat), seekRead f (base + o) 512 = .ok d → f[base + o + d.length]? = none := by
    intro f base o h
    obtain ⟨h1, -, -⟩ := of_seekRead h
    have hl : d.length = min 512 (f.length - (base + o)) := by rw [h1, slice_length]; omega
    exact List.getElem?_eq_none (by omega)
  cases x with
  | zero =>
    cases h
    rw [zeros, List.length_replicate] at hd
    exact absurd hd (Nat.lt_irrefl _)
  | volume o => exact key _ _ _ h
  | store o => exact key _ _ _ h

theorem readSources_end {img : Image} {l : List Source} {d : Bytes} (h : readSources img l = .ok d) (hd : d.length < 512 * l.length) :
    ∃ x, l[d.length / 512]? = some x ∧ sourceByte img x (d.length % 512) = none := by
  induction l generalizing d with
  | nil => simp at hd
  | cons x rest ih =>
    rw [readSources] at h
    cases hx : readSource img x with
    | error e => rw [hx] at h; cases h
    | ok c =>
      rw [hx] at h
      obtain ⟨c1, c2⟩ := readSource_sound hx
      dsimp only at h
      by_cases hc : c.length ≠ 512
      · rw [if_pos hc] at h
        have e : c = d := by injection h
        subst e
        refine ⟨x, by rw [show c.length / 512 = 0 by omega]; rfl, ?_⟩
        rw [show c.length % 512 = c.length by omega]
        exact readSource_end hx (by omega)
      · rw [if_neg hc] at h
        cases hr : readSources img rest with
        | error e => rw [hr] at h; cases h
        | ok ds =>
          rw [hr] at h
          have e : c ++ ds = d := by injection h
          subst e
          rw [List.length_append, List.length_cons] at hd
          obtain ⟨y, y1, y2⟩ := ih hr (by omega)
          have hl : (c ++ ds).length = ds.length + 512 := by rw [List.length_append]; omega
          refine ⟨y, ?_, ?_⟩
          · rw [hl, show (ds.length + 512) / 512 = ds.length / 512 + 1 by omega, List.getElem?_cons_succ]; exact y1
          · rw [hl, show (ds.length + 512) % 512 = ds.length % 512 by omega]; exact y2

theorem readBlock_end {img : Image} {stores : List Store} (hne : stores ≠ []) (hl : ∀ s ∈ stores, Loaded s) {k : Nat} {d : Bytes}
    (h : readBlock img stores (k * 0x4000) = .ok d) (hd : d.length < 0x4000) : byteAt img stores (k * 0x4000 + d.length) = none := by
  unfold readBlock at h
  rcases translate_outcome img.volumeSize stores hne hl (k * 0x4000) false false with ⟨l, h1, h2, h3⟩ | ⟨h1, -⟩
  · rw [h1] at h
    obtain ⟨x, x1, x2⟩ := readSources_end h (by omega)
    rw [h3 (d.length / 512) (by omega)] at x1
    cases x1
    rw [byteAt_block _ _ _ _ hd]
    exact x2
  · rw [h1] at h; cases h

/-- What a read takes of a block ends where it was asked to end, at the end of the block, or at a byte that the image does not have; `p` is
in front of the first byte of the block that the image does not have, or at the start of the block. -/
theorem part_end {img : Image} {stores : List Store} (hne : stores ≠ []) (hl : ∀ s ∈ stores, Loaded s) {p n : Nat} {d : Bytes}
    (h : readBlock img stores (p / 0x4000 * 0x4000) = .ok d)
    (hp : p % 0x4000 = 0 ∨ slice d (p % 0x4000) (p % 0x4000 + n) ≠ [] ∨ byteAt img stores p = none) :
    (slice d (p % 0x4000) (p % 0x4000 + n)).length = n ∨
    p + (slice d (p % 0x4000) (p % 0x4000 + n)).length = (p / 0x4000 + 1) * 0x4000 ∨
    byteAt img stores (p + (slice d (p % 0x4000) (p % 0x4000 + n)).length) = none := by
  obtain ⟨a, b⟩ := readBlock_sound hne hl h
  by_cases hn : n = 0
  · left; subst hn; rw [slice_length]; omega
  rcases Nat.lt_or_ge (p % 0x4000) d.length with hlt | hge
  · rw [slice_length]
    by_cases h1 : p % 0x4000 + n ≤ d.length
    · left; omega
    by_cases h2 : d.length = 0x4000
    · right; left; omega
    right; right
    have := readBlock_end hne hl h (by omega)
    rwa [show p + min (p % 0x4000 + n - p % 0x4000) (d.length - p % 0x4000) = p / 0x4000 * 0x4000 + d.length by omega]
  · have hl0 : (slice d (p % 0x4000) (p % 0x4000 + n)).length = 0 := by rw [slice_length]; omega
    rcases hp with hp | hp | hp
    · right; right
      have := readBlock_end hne hl h (by omega)
      rwa [hl0, Nat.add_zero, show p = p / 0x4000 * 0x4000 + d.length by omega]
    · exact absurd (List.eq_nil_of_length_eq_zero hl0) hp
    · right; right; rwa [hl0]

theorem readLoop_end (img : Image) (stores : List Store) (hne : stores ≠ []) (hl : ∀ s ∈ stores, Loaded s) (size p left : Nat) (data : Bytes)
    (hp : left = 0 ∨ p % 0x4000 = 0 ∨ byteAt img stores p = none) (r : Bytes) (hr : (readLoop img stores size p left data).1 = .ok r) :
    r.length = data.length + left ∨ roundUp size ≤ p + (r.length - data.length) ∨ byteAt img stores (p + (r.length - data.length)) = none := by
  fun_induction readLoop img stores size p left data with
  | case1 p data =>
    have e : data = r := by injection hr
    subst e; left; omega
  | case2 p left data h1 h2 =>
    have e : data = r := by injection hr
    subst e
    rw [Nat.sub_self, Nat.add_zero]
    rcases hp with hp | hp | hp
    · exact absurd hp h1
    · right; left
      obtain ⟨r1, r2, r3⟩ := roundUp_spec size
      omega
    · exact .inr (.inr hp)
  | case3 p left data h1 h2 e h3 => cases hr
  | case4 p left data h1 h2 d h3 new h4 ih =>
    obtain ⟨a, b, c⟩ := part_sound (n := left) hne hl h3
    have a : new.length ≤ left := a
    have b : p + new.length ≤ (p / 0x4000 + 1) * 0x4000 := b
    clear_value new
    obtain ⟨x, -, -, -, -, x5⟩ := readLoop_sound img stores hne hl size (p + new.length) (left - new.length) (data ++ new)
    have hx := x5 r hr
    have hi := ih (.inr (.inl (by omega))) hr
    rw [List.length_append] at hi
    have hlen : r.length = data.length + new.length + x.length := by rw [hx]; simp only [List.length_append]
    rw [show p + new.length + (r.length - (data.length + new.length)) = p + (r.length - data.length) by omega] at hi
    rcases hi with hi | hi
    · left; omega
    · exact .inr hi
  | case5 p left data h1 h2 d h3 new h4 =>
    have e : data ++ new = r := by injection hr
    subst e
    have hround := block_end_le (show p < size by omega)
    have hend := part_end (n := left) hne hl h3 (by
      rcases hp with hp | hp | hp
      · exact absurd hp h1
      · exact .inl hp
      · exact .inr (.inr hp))
    have hend : new.length = left ∨ p + new.length = (p / 0x4000 + 1) * 0x4000 ∨ byteAt img stores (p + new.length) = none := hend
    have hc : ∀ i, i < new.length → new[i]? = byteAt img stores (p + i) := (part_sound (n := left) hne hl h3).2.2
    clear_value new
    rw [List.length_append, Nat.add_sub_cancel_left]
    rcases hend with hend | hend | hend
    · left; omega
    · rcases hp with hp | hp | hp
      · exact absurd hp h1
      · omega
      · by_cases h0 : new.length = 0
        · right; right; rw [h0]; exact hp
        · exfalso
          have := hc 0 (by omega)
          rw [Nat.add_zero, hp, List.getElem?_eq_getElem (by omega)] at this
          cases this
    · exact .inr (.inr hend)

/-- C42, where a read stops: a read that gives something gives the bytes of the shadow copy one after another, as many as were asked for, or
all those up to the end of the last block, or all those up to the first one that the image does not have. -/
theorem C42_stop (img : Image) (fuel : Nat) (key : Key) (stores : List Store) (h : select img fuel key = some (.ok stores)) (p n : Nat) (d : Bytes)
    (hd : (ShadowCopy.read img stores p (some n)).1 = .ok d) (hne : d ≠ []) :
    d.length ≤ n ∧ p + d.length ≤ roundUp (shadowSize img stores) ∧ (∀ i, i < d.length → d[i]? = byteAt img stores (p + i)) ∧
      (d.length = n ∨ p + d.length = roundUp (shadowSize img stores) ∨ byteAt img stores (p + d.length) = none) := by
  have hb := (C42_sound img fuel key stores h p (some n) d hd).2
  obtain ⟨hs, hl⟩ := C41_selected img fuel key stores h
  unfold ShadowCopy.read at hd
  cases stores with
  | nil => exact absurd rfl hs
  | cons s next =>
    dsimp only at hd
    have hn : readSize (virtualSize img s) p (some (n : Int)) = n := by
      unfold readSize
      dsimp only
      rw [if_neg (by omega)]
    rw [hn] at hd
    by_cases hc : (n : Int) ≤ 0 ∨ p ≥ virtualSize img s
    · rw [if_pos hc] at hd
      injection hd with hd
      exact absurd hd.symm hne
    rw [if_neg hc, Int.toNat_natCast] at hd
    cases hx : readBlock img (s :: next) (p / 0x4000 * 0x4000) with
    | error e => rw [hx] at hd; cases hd
    | ok blk =>
      rw [hx] at hd
      dsimp only at hd
      obtain ⟨a, b, c⟩ := part_sound (n := n) hs hl hx
      have hend := part_end (n := n) hs hl hx
      generalize hg : slice blk (p % 0x4000) (p % 0x4000 + n) = data at hd a b c hend
      have hround := block_end_le (show p < virtualSize img s by omega)
      rw [virtualSize_eq img s next] at hd hround
      obtain ⟨x, -, x2, x3, -, x5⟩ := readLoop_sound img (s :: next) hs hl (shadowSize img (s :: next)) (p + data.length) (n - data.length) data
      have hdx := x5 d hd
      have hlen : d.length = data.length + x.length := by rw [hdx, List.length_append]
      have hdata : data ≠ [] := by
        intro h0
        subst h0
        rw [List.length_nil, Nat.add_zero, Nat.sub_zero] at hd
        rw [readLoop, if_neg (by omega), if_neg (by rw [← virtualSize_eq]; omega), hx] at hd
        dsimp only at hd
        rw [hg, dif_neg (by simp)] at hd
        injection hd with hd
        exact hne hd.symm
      have hend := hend (.inr (.inl hdata))
      refine ⟨by omega, ?_, hb, ?_⟩
      · rcases x3 with x3 | rfl
        · omega
        · rw [hlen, List.length_nil]; omega
      have hle := readLoop_end img (s :: next) hs hl (shadowSize img (s :: next)) (p + data.length) (n - data.length) data (by
        rcases hend with he | he | he
        · left; omega
        · right; left; omega
        · exact .inr (.inr he)) d hd
      rw [show p + data.length + (d.length - data.length) = p + d.length by omega] at hle
      have hup : p + d.length ≤ roundUp (shadowSize img (s :: next)) := by
        rcases x3 with x3 | rfl
        · omega
        · rw [hlen, List.length_nil]; omega
      rcases hle with hle | hle | hle
      · left; omega
      · right; left; omega
      · exact .inr (.inr hle)

end Verif.Props
