import Verif.Model.MFT.MappingPairs
import Verif.Spec.MappingPairs
import Verif.Basic.Bits
namespace Verif.MFT
open Verif.Spec.MappingPairs

theorem header_nibbles {cw ow : Nat} (h1 : cw ≤ 8) (h2 : ow ≤ 8) :
    (UInt8.ofNat (cw + 16 * ow)).toNat &&& 15 = cw ∧ (UInt8.ofNat (cw + 16 * ow)).toNat >>> 4 = ow := by
  have : (UInt8.ofNat (cw + 16 * ow)).toNat = cw + 16 * ow := by
    rw [UInt8.toNat_ofNat']; omega
  rw [this, and_15, shr4]; omega

theorem loop_encode (rs : List StoredRun) : ∀ (prev : Int) (acc : List Run) (first : Bool) (t : Bytes),
    ListOk prev first rs → (first = true → acc = []) →
    decodeMappingPairsLoop (encode prev rs ++ (0 :: t)) prev acc = .ok (acc ++ rs.map StoredRun.run) := by
  induction rs with
  | nil =>
    intro prev acc first t _ _
    rw [encode, List.nil_append, decodeMappingPairsLoop]; simp
  | cons r rs ih =>
    intro prev acc first t hok hfirst
    obtain ⟨⟨hcw1, hcw8, hpos, hfit, hl⟩, h0, hrest⟩ := hok
    obtain ⟨cw, ow, lcn, count⟩ := r
    simp only at hcw1 hcw8 hpos hfit hl h0
    cases lcn with
    | none =>
      simp only at hl
      subst hl
      have hn := header_nibbles (cw := cw) (ow := 0) hcw8 (by omega)
      simp only [Nat.mul_zero, Nat.add_zero] at hn
      have hne : UInt8.ofNat cw ≠ 0 := by
        intro h
        have := congrArg UInt8.toNat h
        rw [UInt8.toNat_ofNat'] at this; simp at this; omega
      simp only [encode, encodeRun, nextBase, List.cons_append, List.append_assoc]
      rw [decodeMappingPairsLoop]
      simp only [hn.1, hn.2]
      rw [if_neg hne, if_neg (by omega)]
      have htake : List.take cw (intLE cw count ++ (encode prev rs ++ 0 :: t)) = intLE cw count := by
        rw [List.take_append_of_le_length (by rw [intLE_length]; omega), List.take_of_length_le (by rw [intLE_length]; omega)]
      have hdrop : List.drop cw (intLE cw count ++ (encode prev rs ++ 0 :: t)) = encode prev rs ++ 0 :: t := by
        rw [List.drop_append_of_le_length (by rw [intLE_length]; omega), List.drop_of_length_le (by rw [intLE_length]; omega), List.nil_append]
      simp only [htake, hdrop, intLE_length, leInt_intLE hfit.1 hfit.2]
      rw [if_neg (by omega), if_neg (by omega), if_neg (by omega)]
      rw [ih prev _ false t hrest (by simp)]
      simp [StoredRun.run]
    | some l =>
      simp only at hl
      obtain ⟨how1, how8, hofit⟩ := hl
      have hn := header_nibbles (cw := cw) (ow := ow) hcw8 how8
      have hne : UInt8.ofNat (cw + 16 * ow) ≠ 0 := by
        intro h
        have := congrArg UInt8.toNat h
        rw [UInt8.toNat_ofNat'] at this; simp at this; omega
      simp only [encode, encodeRun, nextBase, List.cons_append, List.append_assoc]
      rw [decodeMappingPairsLoop]
      simp only [hn.1, hn.2]
      rw [if_neg hne, if_neg (by omega)]
      have htake : ∀ x, List.take cw (intLE cw count ++ x) = intLE cw count := by
        intro x
        rw [List.take_append_of_le_length (by rw [intLE_length]; omega), List.take_of_length_le (by rw [intLE_length]; omega)]
      have hdrop : ∀ x, List.drop cw (intLE cw count ++ x) = x := by
        intro x
        rw [List.drop_append_of_le_length (by rw [intLE_length]; omega), List.drop_of_length_le (by rw [intLE_length]; omega), List.nil_append]
      have htake2 : ∀ x, List.take ow (intLE ow (l - prev) ++ x) = intLE ow (l - prev) := by
        intro x
        rw [List.take_append_of_le_length (by rw [intLE_length]; omega), List.take_of_length_le (by rw [intLE_length]; omega)]
      have hdrop2 : ∀ x, List.drop ow (intLE ow (l - prev) ++ x) = x := by
        intro x
        rw [List.drop_append_of_le_length (by rw [intLE_length]; omega), List.drop_of_length_le (by rw [intLE_length]; omega), List.nil_append]
      simp only [htake, hdrop, htake2, hdrop2, intLE_length, leInt_intLE hfit.1 hfit.2, leInt_intLE hofit.1 hofit.2]
      have hcurr : prev + (l - prev) = l := by omega
      rw [if_neg (by omega), if_neg (by omega), if_pos (by omega), if_neg (by omega), hcurr]
      rw [if_neg]
      · rw [ih l _ false t hrest (by simp)]
        simp [StoredRun.run]
      · intro ⟨hz, hlen⟩
        have := hfirst (h0 (by rw [hz]))
        rw [this] at hlen; simp at hlen

theorem loop_sound (mp : Bytes) (curr : Int) (acc : List Run) :
    (∀ e, decodeMappingPairsLoop mp curr acc = .error e → e = .MappingPairsException) ∧
    (∀ runs, decodeMappingPairsLoop mp curr acc = .ok runs →
      ∃ rs t, ListOk curr acc.isEmpty rs ∧ mp = encode curr rs ++ (0 :: t) ∧ runs = acc ++ rs.map StoredRun.run) := by
  fun_induction decodeMappingPairsLoop mp curr acc with
  | case1 curr acc => exact ⟨(by intro e h; cases h; rfl), (by intro r h; cases h)⟩
  | case2 curr acc rest =>
    refine ⟨(by intro e h; cases h), ?_⟩
    intro r h; cases h
    exact ⟨[], rest, trivial, by simp [encode], by simp⟩
  | case3 | case4 | case5 | case6 | case7 => exact ⟨(by intro e h; cases h; rfl), (by intro r h; cases h)⟩
  | case8 curr acc header rest hne cl ol hlen cb hcb rest1 count hcount hol ob hob rest2 offset c hz ih =>
    refine ⟨ih.1, ?_⟩
    intro runs h
    obtain ⟨rs, t, hok, heq, hruns⟩ := ih.2 runs h
    refine ⟨⟨cl, ol, some c, count⟩ :: rs, t, ?_, ?_, ?_⟩
    · have hcl : cb.length = cl := by omega
      have hol' : ob.length = ol := by omega
      have b1 := leInt_bounds cb
      have b2 := leInt_bounds ob
      rw [hcl] at b1; rw [hol'] at b2
      simp only [ListOk, RunOk]
      refine ⟨⟨by omega, by omega, by omega, b1, by omega, by omega, ?_⟩, ?_, ?_⟩
      · show Fits ol (c - curr)
        have : c - curr = offset := by show curr + offset - curr = offset; omega
        rw [this]; exact b2
      · intro hc0
        simp only [Option.some.injEq] at hc0
        cases acc with
        | nil => rfl
        | cons a as => exact absurd ⟨hc0, by simp⟩ hz
      · have : (acc ++ [(some c, count)]).isEmpty = false := by simp
        rw [this] at hok; exact hok
    · have hcl : cb.length = cl := by omega
      have hol' : ob.length = ol := by omega
      have e1 : intLE cl count = cb := by rw [← hcl]; exact intLE_leInt cb
      have e2 : intLE ol (c - curr) = ob := by
        have : c - curr = offset := by show curr + offset - curr = offset; omega
        rw [this, ← hol']; exact intLE_leInt ob
      have e3 : UInt8.ofNat (cl + 16 * ol) = header := by
        have hh := header.toNat_lt
        have : cl + 16 * ol = header.toNat := by
          show (header.toNat &&& 15) + 16 * (header.toNat >>> 4) = header.toNat
          rw [and_15, shr4]; omega
        rw [this]; simp
      simp only [encode, encodeRun, nextBase, e1, e2, e3, List.cons_append, List.append_assoc]
      rw [← heq]
      show header :: rest = header :: (rest.take cl ++ ((rest.drop cl).take ol ++ (rest.drop cl).drop ol))
      rw [List.take_append_drop, List.take_append_drop]
    · rw [hruns]; simp [StoredRun.run]
  | case9 curr acc header rest hne cl ol hlen cb hcb rest1 count hcount hol ih =>
    refine ⟨ih.1, ?_⟩
    intro runs h
    obtain ⟨rs, t, hok, heq, hruns⟩ := ih.2 runs h
    have hol0 : ol = 0 := by omega
    refine ⟨⟨cl, ol, none, count⟩ :: rs, t, ?_, ?_, ?_⟩
    · have hcl : cb.length = cl := by omega
      have b1 := leInt_bounds cb
      rw [hcl] at b1
      simp only [ListOk, RunOk]
      refine ⟨⟨by omega, by omega, by omega, b1, hol0⟩, by simp, ?_⟩
      have : (acc ++ [((none : Option Int), count)]).isEmpty = false := by simp
      rw [this] at hok; exact hok
    · have hcl : cb.length = cl := by omega
      have e1 : intLE cl count = cb := by rw [← hcl]; exact intLE_leInt cb
      have e3 : UInt8.ofNat cl = header := by
        have hh := header.toNat_lt
        have : cl = header.toNat := by
          have h2 : header.toNat >>> 4 = 0 := hol0
          show (header.toNat &&& 15) = header.toNat
          rw [shr4] at h2
          rw [and_15]; omega
        rw [this]; simp
      simp only [encode, encodeRun, nextBase, e1, e3, List.cons_append, List.append_assoc]
      rw [← heq]
      show header :: rest = header :: (rest.take cl ++ rest.drop cl)
      rw [List.take_append_drop]
    · rw [hruns]; simp [StoredRun.run]

end Verif.MFT
