/-
C42 and C43: reading a shadow copy.
-/
import Verif.Props.C41
namespace Verif.Props
open Verif.ShadowCopy Verif.Spec.Shadow

theorem roundUp_spec (n : Nat) : n ≤ roundUp n ∧ roundUp n < n + 0x4000 ∧ roundUp n % 0x4000 = 0 := by
  unfold roundUp
  omega

theorem block_end_le {p n : Nat} (h : p < n) : (p / 0x4000 + 1) * 0x4000 ≤ roundUp n := by
  obtain ⟨h1, -, h3⟩ := roundUp_spec n
  generalize roundUp n = m at h1 h3
  omega

attribute [local irreducible] roundUp shadowSize

/-! ### Sources -/

theorem readSource_sound {img : Image} {x : Source} {d : Bytes} (h : readSource img x = .ok d) :
    d.length ≤ 512 ∧ ∀ j, j < d.length → d[j]? = sourceByte img x j := by
  have key : ∀ (f : Bytes) (base o : Nat), seekRead f (base + o) 512 = .ok d →
      d.length ≤ 512 ∧ ∀ j, j < d.length → d[j]? = f[base + o + j]? := by
    intro f base o h
    obtain ⟨h1, -, -⟩ := of_seekRead h
    have hl : d.length ≤ 512 := by rw [h1, slice_length]; omega
    refine ⟨hl, fun j hj => ?_⟩
    rw [h1, slice_getElem?, if_pos (by omega)]
  cases x with
  | zero =>
    cases h
    refine ⟨Nat.le_of_eq List.length_replicate, fun j hj => ?_⟩
    simp only [zeros, List.length_replicate] at hj
    show (List.replicate 512 (0 : UInt8))[j]? = some 0
    rw [List.getElem?_replicate, if_pos hj]
  | volume o => exact key _ _ _ h
  | store o => exact key _ _ _ h

theorem readSource_complete {img : Image} {x : Source} (hs : Seekable img x) : ∃ d, readSource img x = .ok d ∧
    ((sourceByte img x 511).isSome = true → d.length = 512) := by
  have key : ∀ (f : Bytes) (base o : Nat), base + o < 2 ^ 63 → ∃ d, seekRead f (base + o) 512 = .ok d ∧
      ((f[base + o + 511]?).isSome = true → d.length = 512) := by
    intro f base o h
    refine ⟨_, seekRead_ok h (by decide), fun hb => ?_⟩
    have : base + o + 511 < f.length := by
      rcases Nat.lt_or_ge (base + o + 511) f.length with hc | hc
      · exact hc
      · rw [List.getElem?_eq_none hc] at hb; cases hb
    rw [slice_length]
    omega
  cases x with
  | zero => exact ⟨zeros 512, rfl, fun _ => List.length_replicate⟩
  | volume o => exact key _ _ _ hs
  | store o => exact key _ _ _ hs

theorem readSources_sound {img : Image} {l : List Source} {d : Bytes} (h : readSources img l = .ok d) :
    d.length ≤ 512 * l.length ∧ ∀ j, j < d.length → ∃ x, l[j / 512]? = some x ∧ d[j]? = sourceByte img x (j % 512) := by
  induction l generalizing d with
  | nil => cases h; simp
  | cons x rest ih =>
    rw [readSources] at h
    cases hx : readSource img x with
    | error e => rw [hx] at h; cases h
    | ok c =>
      rw [hx] at h
      obtain ⟨c1, c2⟩ := readSource_sound hx
      dsimp only at h
      by_cases hc : c.length ≠ 512
      · rw [if_pos hc] at h
        cases h
        refine ⟨by rw [List.length_cons]; omega, fun j hj => ⟨x, ?_, ?_⟩⟩
        · rw [show j / 512 = 0 by omega]; rfl
        · rw [show j % 512 = j by omega]; exact c2 j hj
      · rw [if_neg hc] at h
        cases hr : readSources img rest with
        | error e => rw [hr] at h; cases h
        | ok ds =>
          rw [hr] at h
          cases h
          obtain ⟨i1, i2⟩ := ih hr
          refine ⟨by rw [List.length_append, List.length_cons]; omega, fun j hj => ?_⟩
          rw [List.length_append] at hj
          by_cases hj2 : j < 512
          · refine ⟨x, by rw [show j / 512 = 0 by omega]; rfl, ?_⟩
            rw [List.getElem?_append_left (by omega), show j % 512 = j by omega]
            exact c2 j (by omega)
          · obtain ⟨y, y1, y2⟩ := i2 (j - 512) (by omega)
            refine ⟨y, ?_, ?_⟩
            · rw [show j / 512 = (j - 512) / 512 + 1 by omega, List.getElem?_cons_succ]; exact y1
            · rw [List.getElem?_append_right (by omega), show j - c.length = j - 512 by omega, y2,
                show (j - 512) % 512 = j % 512 by omega]

theorem readSources_complete {img : Image} (l : List Source) (hs : ∀ x ∈ l, Seekable img x) : ∃ d, readSources img l = .ok d ∧
    ∀ k, k ≤ l.length → (∀ j x, j < k → l[j]? = some x → (sourceByte img x 511).isSome = true) → 512 * k ≤ d.length := by
  induction l with
  | nil => exact ⟨[], rfl, fun k hk _ => by simp at hk; subst hk; simp⟩
  | cons x rest ih =>
    obtain ⟨c, c1, c2⟩ := readSource_complete (hs x (by simp))
    obtain ⟨ds, d1, d2⟩ := ih (fun y hy => hs y (List.mem_cons_of_mem _ hy))
    rw [readSources, c1]
    dsimp only
    by_cases hc : c.length ≠ 512
    · rw [if_pos hc]
      refine ⟨c, rfl, fun k hk h => ?_⟩
      cases k with
      | zero => omega
      | succ k => exact absurd (c2 (h 0 x (by omega) rfl)) hc
    · rw [if_neg hc, d1]
      refine ⟨c ++ ds, rfl, fun k hk h => ?_⟩
      rw [List.length_append]
      cases k with
      | zero => omega
      | succ k =>
        have := d2 k (by simp at hk; omega) (fun j y hj hy => h (j + 1) y (by omega) (by rw [List.getElem?_cons_succ]; exact hy))
        omega

/-! ### Blocks -/

theorem byteAt_block (img : Image) (stores : List Store) (k j : Nat) (hj : j < 0x4000) : byteAt img stores (k * 0x4000 + j) =
    sourceByte img (sector stores (k * 0x4000) true false (j / 512)) (j % 512) := by
  unfold byteAt
  rw [show (k * 0x4000 + j) / 0x4000 = k by omega, show (k * 0x4000 + j) % 0x4000 = j by omega,
    show (k * 0x4000 + j) % 512 = j % 512 by omega]

theorem readBlock_sound {img : Image} {stores : List Store} (hne : stores ≠ []) (hl : ∀ s ∈ stores, Loaded s) {k : Nat} {d : Bytes}
    (h : readBlock img stores (k * 0x4000) = .ok d) :
    d.length ≤ 0x4000 ∧ ∀ j, j < d.length → d[j]? = byteAt img stores (k * 0x4000 + j) := by
  unfold readBlock at h
  rcases translate_outcome img.volumeSize stores hne hl (k * 0x4000) false false with ⟨l, h1, h2, h3⟩ | ⟨h1, -⟩
  · rw [h1] at h
    obtain ⟨a, b⟩ := readSources_sound h
    refine ⟨by omega, fun j hj => ?_⟩
    obtain ⟨x, x1, x2⟩ := b j hj
    rw [h3 (j / 512) (by omega)] at x1
    cases x1
    rw [x2, byteAt_block _ _ _ _ (by omega)]
    rfl
  · rw [h1] at h; cases h

theorem readBlock_complete {img : Image} {stores : List Store} (hne : stores ≠ []) (hl : ∀ s ∈ stores, Loaded s) {k : Nat}
    (hb : BlockOffset img.volumeSize (k * 0x4000)) (hf : ForwardersInside img.volumeSize stores)
    (hs : ∀ i, i < 32 → Seekable img (sector stores (k * 0x4000) true false i)) : ∃ d, readBlock img stores (k * 0x4000) = .ok d ∧
    ∀ n, n ≤ 0x4000 → (∀ j, j / 512 * 512 < n → (byteAt img stores (k * 0x4000 + j)).isSome = true) → n ≤ d.length := by
  unfold readBlock
  rcases translate_outcome img.volumeSize stores hne hl (k * 0x4000) false false with ⟨l, h1, h2, h3⟩ | ⟨h1, h2⟩
  · rw [h1]
    dsimp only
    obtain ⟨d, d1, d2⟩ := readSources_complete l (fun x hx => by
      obtain ⟨i, hi⟩ := List.mem_iff_getElem?.mp hx
      have hi32 : i < 32 := by rw [← h2]; exact (List.getElem?_eq_some_iff.mp hi).1
      rw [h3 i hi32] at hi
      cases hi
      exact hs i hi32)
    refine ⟨d, d1, fun n hn h => ?_⟩
    have := d2 ((n + 511) / 512) (by omega) (fun j x hj hx => by
      rw [h3 j (by omega)] at hx
      cases hx
      have := h (j * 512 + 511) (by omega)
      rw [byteAt_block _ _ _ _ (by omega), show (j * 512 + 511) / 512 = j by omega, show (j * 512 + 511) % 512 = 511 by omega] at this
      exact this)
    omega
  · exact absurd ⟨hb, hf⟩ h2

/-- The part of a block that a read takes. -/
theorem part_sound {img : Image} {stores : List Store} (hne : stores ≠ []) (hl : ∀ s ∈ stores, Loaded s) {p n : Nat} {d : Bytes}
    (h : readBlock img stores (p / 0x4000 * 0x4000) = .ok d) :
    (slice d (p % 0x4000) (p % 0x4000 + n)).length ≤ n ∧
    p + (slice d (p % 0x4000) (p % 0x4000 + n)).length ≤ (p / 0x4000 + 1) * 0x4000 ∧
    ∀ i, i < (slice d (p % 0x4000) (p % 0x4000 + n)).length →
      (slice d (p % 0x4000) (p % 0x4000 + n))[i]? = byteAt img stores (p + i) := by
  obtain ⟨a, b⟩ := readBlock_sound hne hl h
  rw [slice_length]
  refine ⟨by omega, by omega, fun i hi => ?_⟩
  rw [slice_getElem?, if_pos (by omega), b _ (by omega)]
  congr 1
  omega

/-! ### The loop -/

theorem readLoop_sound (img : Image) (stores : List Store) (hne : stores ≠ []) (hl : ∀ s ∈ stores, Loaded s) (size p left : Nat) (data : Bytes) :
    ∃ x : Bytes, (readLoop img stores size p left data).2 = p + x.length ∧ x.length ≤ left ∧ (p + x.length ≤ roundUp size ∨ x = []) ∧
      (∀ i, i < x.length → x[i]? = byteAt img stores (p + i)) ∧
      ∀ r, (readLoop img stores size p left data).1 = .ok r → r = data ++ x := by
  fun_induction readLoop img stores size p left data with
  | case1 p data => exact ⟨[], rfl, by simp, .inr rfl, by simp, fun r h => by cases h; simp⟩
  | case2 p left data h1 h2 => exact ⟨[], rfl, by simp, .inr rfl, by simp, fun r h => by cases h; simp⟩
  | case3 p left data h1 h2 e h3 => exact ⟨[], rfl, by simp, .inr rfl, by simp, fun r h => by cases h⟩
  | case4 p left data h1 h2 d h3 new h4 ih =>
    obtain ⟨a, b, c⟩ := part_sound (n := left) hne hl h3
    have a : new.length ≤ left := a
    have b : p + new.length ≤ (p / 0x4000 + 1) * 0x4000 := b
    have c : ∀ i, i < new.length → new[i]? = byteAt img stores (p + i) := c
    clear_value new
    obtain ⟨x, x1, x2, x3, x4, x5⟩ := ih
    refine ⟨new ++ x, ?_, ?_, .inl ?_, fun i hi => ?_, fun r hr => ?_⟩
    · rw [x1, List.length_append, Nat.add_assoc]
    · rw [List.length_append]; omega
    · rw [List.length_append]
      have hround := block_end_le (show p < size by omega)
      rcases x3 with x3 | rfl
      · omega
      · rw [List.length_nil, Nat.add_zero]; exact Nat.le_trans b hround
    · rw [List.length_append] at hi
      by_cases hi2 : i < new.length
      · rw [List.getElem?_append_left hi2]; exact c i hi2
      · rw [List.getElem?_append_right (by omega), x4 (i - new.length) (by omega)]
        congr 1; omega
    · rw [x5 r hr, List.append_assoc]
  | case5 p left data h1 h2 d h3 new h4 =>
    obtain ⟨a, b, c⟩ := part_sound (n := left) hne hl h3
    have a : new.length ≤ left := a
    have b : p + new.length ≤ (p / 0x4000 + 1) * 0x4000 := b
    have c : ∀ i, i < new.length → new[i]? = byteAt img stores (p + i) := c
    clear_value new
    exact ⟨new, rfl, a, .inl (Nat.le_trans b (block_end_le (by omega))), c, fun r h => by cases h; rfl⟩

theorem virtualSize_eq (img : Image) (s : Store) (next : List Store) : virtualSize img s = shadowSize img (s :: next) := by
  unfold virtualSize shadowSize
  cases img.volumeSize with
  | none => rfl
  | some n =>
    dsimp only
    split <;> omega

theorem blockOffset_of {img : Image} {stores : List Store} {p : Nat} (h : p < shadowSize img stores) : BlockOffset img.volumeSize (p / 0x4000 * 0x4000) := by
  refine ⟨Nat.dvd_mul_left _ _, fun n hn => ?_⟩
  unfold shadowSize at h
  cases stores with
  | nil => simp at h
  | cons s next =>
    rw [hn] at h
    dsimp only at h
    omega

/-- `k` is the smaller one of two numbers. -/
def IsMin (k a b : Nat) : Prop := k ≤ a ∧ k ≤ b ∧ (k = a ∨ k = b)

theorem isMin_iff (k a b : Nat) : IsMin k a b ↔ k = min a b := by unfold IsMin; omega

theorem end_inside (k m p b n q r : Nat) (hp : 0x4000 * q + r = p) (hb : p + n ≤ b ∨ (q + 1) * 0x4000 ≤ b) (h1 : m ≤ 0x4000)
    (h2 : m ≤ r + n) (hk : k < m) : q * 0x4000 + k < b := by omega

theorem part_complete {img : Image} {stores : List Store} (hne : stores ≠ []) (hl : ∀ s ∈ stores, Loaded s) {a b p n : Nat}
    (hr : Readable img stores a b) (ha : a ≤ p) (hp : p < shadowSize img stores) (hn : 0 < n) (hb : p + n ≤ b ∨ (p / 0x4000 + 1) * 0x4000 ≤ b) :
    ∃ d, readBlock img stores (p / 0x4000 * 0x4000) = .ok d ∧
      IsMin (slice d (p % 0x4000) (p % 0x4000 + n)).length n (0x4000 - p % 0x4000) := by
  have hlow : a / 0x4000 * 0x4000 ≤ p / 0x4000 * 0x4000 := Nat.mul_le_mul_right _ (Nat.div_le_div_right ha)
  obtain ⟨d, d1, d2⟩ := readBlock_complete hne hl (blockOffset_of hp) hr.forwarders (fun i hi => by
    have e1 : (p / 0x4000 * 0x4000 + i * 512) / 0x4000 = p / 0x4000 := by omega
    have := hr.offsets (p / 0x4000 * 0x4000 + i * 512) (Nat.le_trans hlow (Nat.le_add_right _ _)) (by rw [e1]; clear hlow; omega)
    rw [e1, show (p / 0x4000 * 0x4000 + i * 512) % 0x4000 / 512 = i by omega] at this
    exact this)
  refine ⟨d, d1, ?_⟩
  obtain ⟨e1, -⟩ := readBlock_sound hne hl d1
  have key : ∀ m, m ≤ 0x4000 → m ≤ p % 0x4000 + n → m ≤ d.length := by
    intro m h1 h2
    refine d2 m h1 (fun j hj => hr.bytes _ (Nat.le_trans hlow (Nat.le_add_right _ _)) ?_)
    have e2 : (p / 0x4000 * 0x4000 + j) / 512 * 512 = p / 0x4000 * 0x4000 + j / 512 * 512 := by
      generalize p / 0x4000 = q
      omega
    rw [e2]
    exact end_inside (j / 512 * 512) m p b n (p / 0x4000) (p % 0x4000) (Nat.div_add_mod p 0x4000) hb h1 h2 hj
  have hlen : IsMin (slice d (p % 0x4000) (p % 0x4000 + n)).length n (d.length - p % 0x4000) := by
    rw [isMin_iff, slice_length, Nat.add_sub_cancel_left]
  unfold IsMin at hlen ⊢
  by_cases hc : p % 0x4000 + n ≤ 0x4000
  · have := key _ hc (Nat.le_refl _); omega
  · have := key _ (Nat.le_refl _) (by omega); omega

theorem readLoop_complete (img : Image) (stores : List Store) (hne : stores ≠ []) (hl : ∀ s ∈ stores, Loaded s) (a b size p left : Nat) (data : Bytes)
    (hs : size = shadowSize img stores) (hr : Readable img stores a b) (ha : a ≤ p) (hb : p + left ≤ b ∨ roundUp size ≤ b)
    (hal : left = 0 ∨ p % 0x4000 = 0) :
    ∃ r k, readLoop img stores size p left data = (.ok r, p + k) ∧ r.length = data.length + k ∧ IsMin k left (roundUp size - p) := by
  fun_induction readLoop img stores size p left data with
  | case1 p data => exact ⟨data, 0, rfl, rfl, by omega, by omega, .inl rfl⟩
  | case2 p left data h1 h2 =>
    have := roundUp_spec size
    exact ⟨data, 0, rfl, rfl, by omega, by omega, .inr (by omega)⟩
  | case3 p left data h1 h2 e h3 =>
    have hround := block_end_le (show p < size by omega)
    obtain ⟨d, d1, -⟩ := part_complete (n := left) hne hl hr ha (by omega) (by omega) (by omega)
    rw [d1] at h3; cases h3
  | case4 p left data h1 h2 d h3 new h4 ih =>
    have hround := block_end_le (show p < size by clear ih; omega)
    obtain ⟨d', d1, d2⟩ := part_complete (n := left) hne hl hr ha (by clear ih; omega) (by clear ih; omega) (by clear ih; omega)
    rw [d1] at h3; cases h3
    have d2 : IsMin new.length left (0x4000 - p % 0x4000) := d2
    clear_value new
    unfold IsMin at d2 ih ⊢
    have g1 : a ≤ p + new.length := by clear ih; omega
    have g2 : p + new.length + (left - new.length) ≤ b ∨ roundUp size ≤ b := by clear ih; omega
    have g3 : left - new.length = 0 ∨ (p + new.length) % 0x4000 = 0 := by clear ih; omega
    obtain ⟨r, k, r1, r2, r3⟩ := ih g1 g2 g3
    refine ⟨r, new.length + k, by rw [r1, Nat.add_assoc], by rw [r2, List.length_append, Nat.add_assoc], ?_⟩
    clear r1 r2 ha hs d1
    omega
  | case5 p left data h1 h2 d h3 new h4 =>
    have hround := block_end_le (show p < size by omega)
    obtain ⟨d', d1, d2⟩ := part_complete (n := left) hne hl hr ha (by omega) (by omega) (by omega)
    rw [d1] at h3; cases h3
    have d2 : IsMin new.length left (0x4000 - p % 0x4000) := d2
    clear_value new
    unfold IsMin at d2 ⊢
    refine ⟨data ++ new, new.length, rfl, List.length_append, ?_⟩
    omega

/-! ### C42 -/

/-- C42, nothing wrong: every byte that a read returns is the byte of the shadow copy at its position, and the
position moves by the number of the bytes that are returned. -/
theorem C42_sound (img : Image) (fuel : Nat) (key : Key) (stores : List Store) (h : select img fuel key = some (.ok stores))
    (p : Nat) (n : Option Int) (d : Bytes) (hd : (ShadowCopy.read img stores p n).1 = .ok d) :
    (ShadowCopy.read img stores p n).2 = p + d.length ∧ ∀ i, i < d.length → d[i]? = byteAt img stores (p + i) := by
  obtain ⟨hne, hl⟩ := C41_selected img fuel key stores h
  unfold ShadowCopy.read at hd ⊢
  cases stores with
  | nil => exact absurd rfl hne
  | cons s next =>
    dsimp only at hd ⊢
    generalize readSize (virtualSize img s) p n = m at hd ⊢
    by_cases hc : m ≤ 0 ∨ p ≥ virtualSize img s
    · rw [if_pos hc] at hd ⊢
      cases hd
      exact ⟨rfl, by simp⟩
    rw [if_neg hc] at hd ⊢
    cases hb : readBlock img (s :: next) (p / 0x4000 * 0x4000) with
    | error e => rw [hb] at hd; cases hd
    | ok blk =>
      rw [hb] at hd
      dsimp only at hd ⊢
      obtain ⟨-, -, c⟩ := part_sound (n := m.toNat) hne hl hb
      generalize slice blk (p % 0x4000) (p % 0x4000 + m.toNat) = data at hd c ⊢
      obtain ⟨x, x1, -, -, x4, x5⟩ := readLoop_sound img (s :: next) hne hl (virtualSize img s) (p + data.length) (m.toNat - data.length) data
      have := x5 d hd
      subst this
      refine ⟨by rw [x1, List.length_append, Nat.add_assoc], fun i hi => ?_⟩
      rw [List.length_append] at hi
      by_cases hi2 : i < data.length
      · rw [List.getElem?_append_left hi2]; exact c i hi2
      · rw [List.getElem?_append_right (by omega), x4 _ (by omega)]
        congr 1; omega

/-- C42, nothing missing: a read inside the shadow copy returns all the bytes that were asked for, if the image has
them.  (At the end of the shadow copy a read can go on to the end of the last block, see C43.) -/
theorem C42_complete (img : Image) (fuel : Nat) (key : Key) (stores : List Store) (h : select img fuel key = some (.ok stores))
    (p n b : Nat) (hp : p < shadowSize img stores) (hb : p + n ≤ b ∨ roundUp (shadowSize img stores) ≤ b) (hr : Readable img stores p b) :
    ∃ d, ShadowCopy.read img stores p (some n) = (.ok d, p + d.length) ∧ d.length = min n (roundUp (shadowSize img stores) - p) := by
  obtain ⟨hne, hl⟩ := C41_selected img fuel key stores h
  unfold ShadowCopy.read
  cases stores with
  | nil => exact absurd rfl hne
  | cons s next =>
    dsimp only
    rw [show readSize (virtualSize img s) p (some n) = n by unfold readSize; dsimp only; rw [if_neg (by omega)], virtualSize_eq img s next]
    by_cases hn : n = 0
    · subst hn
      rw [if_pos (by omega)]
      exact ⟨[], rfl, by simp⟩
    rw [if_neg (by omega), Int.toNat_natCast]
    have hround := block_end_le hp
    obtain ⟨blk, b1, b2⟩ := part_complete (n := n) hne hl hr (Nat.le_refl _) hp (by omega) (by omega)
    rw [b1]
    dsimp only
    generalize slice blk (p % 0x4000) (p % 0x4000 + n) = data at b2 ⊢
    unfold IsMin at b2
    obtain ⟨r, k, r1, r2, r3⟩ := readLoop_complete img (s :: next) hne hl p b (shadowSize img (s :: next)) (p + data.length) (n - data.length) data
      rfl hr (by omega) (by omega) (by omega)
    rw [r1]
    unfold IsMin at r3
    refine ⟨r, by rw [r2, Nat.add_assoc], ?_⟩
    rw [← isMin_iff]
    unfold IsMin
    rw [r2]
    clear r1 r2 hr b1 hb
    omega

/-- C42: a read of `n` bytes inside the shadow copy is exact. -/
theorem C42_exact (img : Image) (fuel : Nat) (key : Key) (stores : List Store) (h : select img fuel key = some (.ok stores))
    (p n : Nat) (hp : p + n ≤ shadowSize img stores) (hr : Readable img stores p (p + n)) :
    ∃ d, ShadowCopy.read img stores p (some n) = (.ok d, p + n) ∧ d.length = n ∧ ∀ i, i < n → d[i]? = byteAt img stores (p + i) := by
  by_cases hn : n = 0
  · subst hn
    refine ⟨[], ?_, rfl, by simp⟩
    obtain ⟨hne, -⟩ := C41_selected img fuel key stores h
    unfold ShadowCopy.read
    cases stores with
    | nil => exact absurd rfl hne
    | cons s next =>
      dsimp only
      rw [if_pos (.inl (show readSize (virtualSize img s) p (some 0) ≤ 0 by unfold readSize; simp))]
      rfl
  have hround := (roundUp_spec (shadowSize img stores)).1
  obtain ⟨d, d1, d2⟩ := C42_complete img fuel key stores h p n (p + n) (by omega) (.inl (Nat.le_refl _)) hr
  have hlen : d.length = n := by omega
  refine ⟨d, by rw [d1, hlen], hlen, ?_⟩
  rw [← hlen]
  exact (C42_sound img fuel key stores h p (some n) d (by rw [d1])).2

/-- C42: splitting a read changes nothing: `read(a)` and then `read(b)` return together what `read(a + b)`
returns, and leave the same position. -/
theorem C42_split (img : Image) (fuel : Nat) (key : Key) (stores : List Store) (h : select img fuel key = some (.ok stores))
    (p a b : Nat) (hp : p + (a + b) ≤ shadowSize img stores) (hr : Readable img stores p (p + (a + b))) :
    ∃ d1 d2, ShadowCopy.read img stores p (some a) = (.ok d1, p + a) ∧ ShadowCopy.read img stores (p + a) (some b) = (.ok d2, p + (a + b)) ∧
      ShadowCopy.read img stores p (some (a + b : Nat)) = (.ok (d1 ++ d2), p + (a + b)) := by
  have mono : ∀ x y, p ≤ x → y ≤ p + (a + b) → Readable img stores x y := by
    intro x y hx hy
    have hlow : p / 0x4000 * 0x4000 ≤ x / 0x4000 * 0x4000 := Nat.mul_le_mul_right _ (Nat.div_le_div_right hx)
    exact ⟨fun q h1 h2 => hr.bytes q (Nat.le_trans hlow h1) (Nat.lt_of_lt_of_le h2 hy),
      fun q h1 h2 => hr.offsets q (Nat.le_trans hlow h1) (Nat.lt_of_lt_of_le h2 hy), hr.forwarders⟩
  obtain ⟨d1, e1, l1, b1⟩ := C42_exact img fuel key stores h p a (by omega) (mono _ _ (by omega) (by omega))
  obtain ⟨d2, e2, l2, b2⟩ := C42_exact img fuel key stores h (p + a) b (by omega) (mono _ _ (by omega) (by omega))
  obtain ⟨d, e, l, bb⟩ := C42_exact img fuel key stores h p (a + b) hp hr
  refine ⟨d1, d2, e1, by rw [← Nat.add_assoc]; exact e2, ?_⟩
  rw [e]
  have : d = d1 ++ d2 := by
    apply List.ext_getElem?
    intro i
    by_cases hi : i < a + b
    · rw [bb i hi]
      by_cases hi2 : i < a
      · rw [List.getElem?_append_left (by omega), b1 i hi2]
      · rw [List.getElem?_append_right (by omega), l1, b2 (i - a) (by omega)]
        congr 1; omega
    · rw [List.getElem?_eq_none (by omega), List.getElem?_eq_none (by rw [List.length_append]; omega)]
  rw [this]

/-- C42: reading the rest (`read()`) is a read of exactly the bytes up to the size of the shadow copy. -/
theorem C42_rest (img : Image) (stores : List Store) (hne : stores ≠ []) (p : Nat) :
    ShadowCopy.read img stores p none = ShadowCopy.read img stores p (some ((shadowSize img stores - p : Nat) : Int)) := by
  cases stores with
  | nil => exact absurd rfl hne
  | cons s next =>
    unfold ShadowCopy.read readSize
    dsimp only
    rw [if_neg (show ¬ (((shadowSize img (s :: next) - p : Nat) : Int) < 0) by omega), virtualSize_eq img s next]
    by_cases hp : p ≥ shadowSize img (s :: next)
    · rw [if_pos (.inr hp), if_pos (.inr hp)]
    · rw [show ((shadowSize img (s :: next) : Int) - p) = ((shadowSize img (s :: next) - p : Nat) : Int) by omega]

/-- C42: `seek` sets the position that it was asked for, and refuses exactly the negative ones. -/
theorem C42_seek (img : Image) (s : Store) (next : List Store) (p : Nat) (off whence : Int) : seek img s p off whence =
    if whence = 0 ∧ 0 ≤ off then .ok off.toNat
    else if whence = 1 ∧ 0 ≤ p + off then .ok (p + off).toNat
    else if whence = 2 ∧ 0 ≤ shadowSize img (s :: next) + off then .ok (shadowSize img (s :: next) + off).toNat
    else .error .ValueError := by
  unfold seek
  rw [virtualSize_eq img s next]
  dsimp only
  generalize (shadowSize img (s :: next) : Int) = z
  by_cases h0 : whence = 0
  · subst h0
    by_cases h : off < 0
    · simp [h, show ¬ (0 ≤ off) by omega]
    · simp [h, show 0 ≤ off by omega]
  by_cases h1 : whence = 1
  · subst h1
    by_cases h : (p : Int) + off < 0
    · simp [h, show ¬ (0 ≤ (p : Int) + off) by omega]
    · simp [h, show 0 ≤ (p : Int) + off by omega]
  by_cases h2 : whence = 2
  · subst h2
    by_cases h : z + off < 0
    · simp [h, show ¬ (0 ≤ z + off) by omega]
    · simp [h, show 0 ≤ z + off by omega]
  simp [h0, h1, h2]

/-! ### C43 -/

/-- C43: a read never returns bytes at or beyond the end of the last block, so never beyond the volume size if that
is a multiple of the size of a block; and never more than was asked for. -/
theorem C43_last_block_partial (img : Image) (fuel : Nat) (key : Key) (stores : List Store) (h : select img fuel key = some (.ok stores))
    (p : Nat) (n : Option Int) (d : Bytes) (hd : (ShadowCopy.read img stores p n).1 = .ok d) :
    (p + d.length ≤ roundUp (shadowSize img stores) ∨ d = []) ∧ (∀ m, n = some m → 0 ≤ m → (d.length : Int) ≤ m) := by
  obtain ⟨hne, hl⟩ := C41_selected img fuel key stores h
  unfold ShadowCopy.read at hd
  cases stores with
  | nil => exact absurd rfl hne
  | cons s next =>
    dsimp only at hd
    generalize hm : readSize (virtualSize img s) p n = m at hd
    have hm' : ∀ k, n = some k → 0 ≤ k → m = k := by
      intro k hk h0
      subst hk
      unfold readSize at hm
      dsimp only at hm
      rw [if_neg (by omega)] at hm
      exact hm.symm
    by_cases hc : m ≤ 0 ∨ p ≥ virtualSize img s
    · rw [if_pos hc] at hd
      cases hd
      exact ⟨.inr rfl, fun k _ h0 => by simpa using h0⟩
    rw [if_neg hc] at hd
    cases hb : readBlock img (s :: next) (p / 0x4000 * 0x4000) with
    | error e => rw [hb] at hd; cases hd
    | ok blk =>
      rw [hb] at hd
      dsimp only at hd
      obtain ⟨a, b, -⟩ := part_sound (n := m.toNat) hne hl hb
      generalize slice blk (p % 0x4000) (p % 0x4000 + m.toNat) = data at hd a b
      obtain ⟨x, -, x2, x3, -, x5⟩ := readLoop_sound img (s :: next) hne hl (virtualSize img s) (p + data.length) (m.toNat - data.length) data
      have := x5 d hd
      subst this
      rw [virtualSize_eq img s next] at hc x3
      refine ⟨.inl ?_, fun k hk h0 => ?_⟩
      · rw [List.length_append]
        have hround := block_end_le (show p < shadowSize img (s :: next) by omega)
        rcases x3 with x3 | rfl
        · omega
        · simp only [List.length_nil]; omega
      · have := hm' k hk h0
        rw [List.length_append]
        omega

/-- C43 holds when the size is a multiple of the size of a block. -/
theorem C43_aligned_partial (img : Image) (fuel : Nat) (key : Key) (stores : List Store) (h : select img fuel key = some (.ok stores))
    (ha : 0x4000 ∣ shadowSize img stores) (p : Nat) (n : Option Int) (d : Bytes) (hd : (ShadowCopy.read img stores p n).1 = .ok d) :
    p + d.length ≤ shadowSize img stores ∨ d = [] := by
  have := (C43_last_block_partial img fuel key stores h p n d hd).1
  have hround := roundUp_spec (shadowSize img stores)
  obtain ⟨k, hk⟩ := ha
  rcases this with h | h
  · exact .inl (by omega)
  · exact .inr h

/-- C43 holds for a read of the rest. -/
theorem C43_rest_partial (img : Image) (fuel : Nat) (key : Key) (stores : List Store) (h : select img fuel key = some (.ok stores))
    (p : Nat) (d : Bytes) (hd : (ShadowCopy.read img stores p none).1 = .ok d) : p + d.length ≤ shadowSize img stores ∨ d = [] := by
  obtain ⟨hne, -⟩ := C41_selected img fuel key stores h
  rw [C42_rest img stores hne p] at hd
  have := (C43_last_block_partial img fuel key stores h p _ d hd).2 _ rfl (by omega)
  by_cases hp : p < shadowSize img stores
  · left; omega
  · right
    have : d.length = 0 := by omega
    exact List.eq_nil_of_length_eq_zero this

end Verif.Props
