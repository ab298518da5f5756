/-
The UTF-16 decoders against the encoding of `Spec/Utf16`.
-/
import Verif.Spec.Utf16
namespace Verif.Proof.Utf16
open Verif Verif.Spec.Utf16 Verif.Spec.Text

theorem pair_bytes (a b : UInt8) : natLE 2 (a.toNat + 256 * b.toNat) = [a, b] := by
  have := natLE_leNat [a, b]
  rwa [show leNat [a, b] = a.toNat + 256 * b.toNat by simp [leNat], show [a, b].length = 2 from rfl] at this

theorem unit_bytes (v : Nat) (h : v < 65536) : ∃ a b : UInt8, natLE 2 v = [a, b] ∧ a.toNat + 256 * b.toNat = v := by
  have h1 := natLE_length 2 v
  have h2 := leNat_natLE 2 v
  match hn : natLE 2 v, h1 with
  | [a, b], _ =>
    refine ⟨a, b, rfl, ?_⟩
    rw [hn] at h2
    simp only [leNat] at h2
    omega

theorem encode_one {c : Nat} (h : c < 0x10000) (s : Str) : encode (c :: s) = natLE 2 c ++ encode s := by
  simp [encode, units, h]

theorem encode_two {c : Nat} (h : ¬ c < 0x10000) (s : Str) :
    encode (c :: s) = natLE 2 (0xD800 + (c - 0x10000) / 0x400) ++ (natLE 2 (0xDC00 + (c - 0x10000) % 0x400) ++ encode s) := by
  simp [encode, units, h]

theorem encode_pair (a b c d : UInt8) (s : Str) (h1 : 0xD800 ≤ a.toNat + 256 * b.toNat ∧ a.toNat + 256 * b.toNat < 0xDC00)
    (h2 : 0xDC00 ≤ c.toNat + 256 * d.toNat ∧ c.toNat + 256 * d.toNat < 0xE000) :
    encode ((0x10000 + (a.toNat + 256 * b.toNat - 0xD800) * 0x400 + (c.toNat + 256 * d.toNat - 0xDC00)) :: s) = a :: b :: c :: d :: encode s := by
  rw [encode_two (by omega)]
  rw [show 0xD800 + (0x10000 + (a.toNat + 256 * b.toNat - 0xD800) * 0x400 + (c.toNat + 256 * d.toNat - 0xDC00) - 0x10000) / 0x400 =
    a.toNat + 256 * b.toNat by omega,
    show 0xDC00 + (0x10000 + (a.toNat + 256 * b.toNat - 0xD800) * 0x400 + (c.toNat + 256 * d.toNat - 0xDC00) - 0x10000) % 0x400 =
    c.toNat + 256 * d.toNat by omega, pair_bytes, pair_bytes]
  rfl

/-- Both decoders give back what was encoded. -/
theorem decode_encode {s : Str} (h : Valid s) : utf16Decode (encode s) = s ∧ utf16DecodeStrict (encode s) = some s := by
  induction s with
  | nil => exact ⟨rfl, rfl⟩
  | cons c s ih =>
    obtain ⟨i1, i2⟩ := ih (fun c hc => h c (List.mem_cons_of_mem _ hc))
    obtain ⟨h1, h2⟩ := h c List.mem_cons_self
    by_cases hc : c < 0x10000
    · obtain ⟨a, b, e1, e2⟩ := unit_bytes c hc
      rw [encode_one hc, e1, List.cons_append, List.cons_append, List.nil_append]
      unfold utf16Decode utf16DecodeStrict
      rw [e2, if_neg (by omega), if_neg (by omega), if_neg (by omega), if_neg (by omega), i1, i2]
      exact ⟨rfl, rfl⟩
    · obtain ⟨a, b, e1, e2⟩ := unit_bytes (0xD800 + (c - 0x10000) / 0x400) (by omega)
      obtain ⟨a', b', e3, e4⟩ := unit_bytes (0xDC00 + (c - 0x10000) % 0x400) (by omega)
      rw [encode_two hc, e1, e3]
      simp only [List.cons_append, List.nil_append]
      unfold utf16Decode utf16DecodeStrict
      dsimp only
      have hval : 0x10000 + (0xD800 + (c - 0x10000) / 0x400 - 0xD800) * 0x400 + (0xDC00 + (c - 0x10000) % 0x400 - 0xDC00) = c := by omega
      rw [e2, e4, if_pos (by omega), if_pos (by omega), if_pos (by omega), if_pos (by omega), i1, i2, hval]
      exact ⟨rfl, rfl⟩

/-- What is shown is always a text. -/
theorem decode_valid (b : Bytes) : Valid (utf16Decode b) := by
  fun_induction utf16Decode b with
  | case1 => intro c h; cases h
  | case2 => intro c h; rw [List.mem_singleton] at h; subst h; exact ⟨by omega, by omega⟩
  | case3 => intro c h; rw [List.mem_singleton] at h; subst h; exact ⟨by omega, by omega⟩
  | case4 => intro c h; rw [List.mem_singleton] at h; subst h; exact ⟨by omega, by omega⟩
  | case5 a b h1 c d rest h2 ih =>
    intro x hx
    rcases List.mem_cons.mp hx with h0 | hx
    · unfold scalar; omega
    · exact ih x hx
  | case6 a b h1 c d rest h2 ih =>
    intro x hx
    rcases List.mem_cons.mp hx with h0 | hx
    · unfold scalar; omega
    · exact ih x hx
  | case7 a b rest h1 h2 ih =>
    intro x hx
    rcases List.mem_cons.mp hx with h0 | hx
    · unfold scalar; omega
    · exact ih x hx
  | case8 a b rest h1 h2 ih =>
    intro x hx
    rcases List.mem_cons.mp hx with h0 | hx
    · have := a.toNat_lt; have := b.toNat_lt
      unfold scalar; omega
    · exact ih x hx

/-- Nothing is lost if nothing was replaced. -/
theorem encode_decode (b : Bytes) (h : replacement ∉ utf16Decode b) : encode (utf16Decode b) = b := by
  fun_induction utf16Decode b with
  | case1 => rfl
  | case2 => exact absurd (by simp [replacement]) h
  | case3 => exact absurd (by simp [replacement]) h
  | case4 => exact absurd (by simp [replacement]) h
  | case5 a b h1 c d rest h2 ih =>
    rw [encode_pair a b c d _ h1 h2, ih (fun hm => h (List.mem_cons_of_mem _ hm))]
  | case6 => exact absurd (by simp [replacement]) h
  | case7 => exact absurd (by simp [replacement]) h
  | case8 a b rest h1 h2 ih =>
    have := a.toNat_lt; have := b.toNat_lt
    rw [encode_one (by omega), pair_bytes, ih (fun hm => h (List.mem_cons_of_mem _ hm))]
    rfl

theorem strict_some (b : Bytes) : ∀ s, utf16DecodeStrict b = some s → Valid s ∧ encode s = b := by
  fun_induction utf16DecodeStrict b with
  | case1 => intro s hs; cases hs; exact ⟨(fun c h => by cases h), rfl⟩
  | case2 => intro s hs; cases hs
  | case3 => intro s hs; cases hs
  | case4 => intro s hs; cases hs
  | case5 a b h1 c d rest h2 ih =>
    intro s hs
    obtain ⟨t, ht, rfl⟩ := Option.map_eq_some_iff.mp hs
    obtain ⟨i1, i2⟩ := ih t ht
    refine ⟨?_, by rw [encode_pair a b c d _ h1 h2, i2]⟩
    intro x hx
    rcases List.mem_cons.mp hx with h0 | hx
    · unfold scalar; omega
    · exact i1 x hx
  | case6 => intro s hs; cases hs
  | case7 => intro s hs; cases hs
  | case8 a b rest h1 h2 ih =>
    intro s hs
    obtain ⟨t, ht, rfl⟩ := Option.map_eq_some_iff.mp hs
    obtain ⟨i1, i2⟩ := ih t ht
    have := a.toNat_lt; have := b.toNat_lt
    refine ⟨?_, by rw [encode_one (by omega), pair_bytes, i2]; rfl⟩
    intro x hx
    rcases List.mem_cons.mp hx with h0 | hx
    · unfold scalar; omega
    · exact i1 x hx

/-- The strict decoder accepts exactly the encodings. -/
theorem strict_iff (b : Bytes) (s : Str) : utf16DecodeStrict b = some s ↔ Valid s ∧ encode s = b := by
  refine ⟨strict_some b s, fun ⟨h1, h2⟩ => ?_⟩
  rw [← h2, (decode_encode h1).2]

theorem encode_append (s t : Str) : encode (s ++ t) = encode s ++ encode t := by
  induction s with
  | nil => rfl
  | cons c s ih => rw [List.cons_append, encode, encode, ih, List.append_assoc]

theorem encode_zeros (n : Nat) : encode (List.replicate n 0) = zeros (2 * n) := by
  induction n with
  | zero => rfl
  | succ n ih =>
    rw [List.replicate_succ, encode_one (by omega), ih, show 2 * (n + 1) = 2 + 2 * n by omega, zeros, zeros, ← List.replicate_append_replicate]
    rfl

theorem encode_inj {s t : Str} (hs : Valid s) (ht : Valid t) (h : encode s = encode t) : s = t := by
  rw [← (decode_encode hs).1, h, (decode_encode ht).1]

end Verif.Proof.Utf16
