import Verif.Spec.FileRecordSegment
import Verif.Proof.MappingPairs
namespace Verif.MFT
open Verif.Spec.FRS

theorem slice_slice' {b : Bytes} {pos n i j : Nat} (h : j ≤ n) :
    slice (slice b pos (pos + n)) i j = slice b (pos + i) (pos + j) := by
  apply List.ext_getElem?
  intro k
  simp only [slice_getElem?]
  by_cases h1 : k < j - i
  · have e : pos + (i + k) = pos + i + k := by omega
    rw [if_pos h1, if_pos (by omega), if_pos (by omega), e]
  · rw [if_neg h1, if_neg (by omega)]

section
variable {data : Bytes} {pos n : Nat}
theorem rec_u8 (k : Nat) (h : k + 1 ≤ n) : leNat (slice (slice data pos (pos + n)) k (k + 1)) = u8 data (pos + k) := by
  rw [slice_slice' h]; rfl
theorem rec_u16 (k : Nat) (h : k + 2 ≤ n) : leNat (slice (slice data pos (pos + n)) k (k + 2)) = u16 data (pos + k) := by
  rw [slice_slice' h]; rfl
theorem rec_u32 (k : Nat) (h : k + 4 ≤ n) : leNat (slice (slice data pos (pos + n)) k (k + 4)) = u32 data (pos + k) := by
  rw [slice_slice' h]; rfl
theorem rec_u64 (k : Nat) (h : k + 8 ≤ n) : leNat (slice (slice data pos (pos + n)) k (k + 8)) = u64 data (pos + k) := by
  rw [slice_slice' h]; rfl
end

/-- Name part of `decodeAttribute_iff`; `hdr` is 24 for form 0 and 64 for form 1. -/
theorem decodeAttributeName_iff {data : Bytes} {pos n form hdr : Nat} (hpos : pos + n ≤ firstFreeByteOffset data)
    (hff : firstFreeByteOffset data ≤ data.length)
    (hform : (form = 0 ∧ hdr = 24) ∨ (form = 1 ∧ hdr = 64)) (hn : hdr ≤ n)
    (hend : headEnd (slice data pos (pos + n)) hdr ≤ n) (name : Option Bytes) :
    decodeAttributeName data pos form (u8 data (pos + 9)) (u16 data (pos + 10)) = .ok name ↔
      NameStored (slice data pos (pos + n)) hdr name := by
  have e9 := rec_u8 (data := data) (pos := pos) (n := n) 9 (by omega)
  have e10 := rec_u16 (data := data) (pos := pos) (n := n) 10 (by omega)
  simp only [headEnd, e9, e10] at hend
  unfold decodeAttributeName
  by_cases h0 : u8 data (pos + 9) > 0
  · rw [if_neg (by omega)] at hend
    have hsl : slice (slice data pos (pos + n)) (u16 data (pos + 10)) (u16 data (pos + 10) + u8 data (pos + 9) * 2)
        = slice data (pos + u16 data (pos + 10)) (pos + u16 data (pos + 10) + u8 data (pos + 9) * 2) := by
      rw [slice_slice' (by omega), Nat.add_assoc]
    have hslen : (slice data (pos + u16 data (pos + 10)) (pos + u16 data (pos + 10) + u8 data (pos + 9) * 2)).length
        = u8 data (pos + 9) * 2 := by
      rw [slice_length_of_le (by omega)]; omega
    rw [if_pos h0, hslen]
    cases name with
    | none =>
      simp only [NameStored, e9]
      constructor
      · intro h
        split at h
        · cases h
        split at h
        · cases h
        split at h <;> cases h
      · intro h; omega
    | some nm =>
      simp only [NameStored, e9, e10]
      constructor
      · intro h
        split at h
        · cases h
        rename_i h1
        split at h
        · cases h
        rw [if_neg (by omega)] at h
        cases h
        refine ⟨h0, by rw [hslen]; omega, by omega, by omega, ?_⟩
        rw [hslen, hsl]
      · rintro ⟨-, hl, h2, h3, h4⟩
        rw [if_neg (by omega), if_neg (by omega), if_neg (by omega)]
        have e : nm.length = u8 data (pos + 9) * 2 := by omega
        rw [e, hsl] at h4
        rw [h4]
  · rw [if_neg h0]
    cases name with
    | none => simp only [NameStored, e9]; constructor
              · intro _; omega
              · intro _; trivial
    | some nm =>
      simp only [NameStored, e9]
      constructor
      · intro h; cases h
      · intro h; omega

/-- What a decoded name says about the end of the header. -/
theorem decodeAttributeName_hdr {data : Bytes} {pos form hdr : Nat}
    (hform : (form = 0 ∧ hdr = 24) ∨ (form = 1 ∧ hdr = 64)) (name : Option Bytes) (k : Nat)
    (h : decodeAttributeName data pos form (u8 data (pos + 9)) (u16 data (pos + 10)) = .ok name)
    (h1 : ¬ ((u8 data (pos + 9)) = 0 ∧ k < hdr))
    (h2 : ¬ (u8 data (pos + 9) > 0 ∧ k < u16 data (pos + 10) + u8 data (pos + 9) * 2)) : hdr ≤ k := by
  unfold decodeAttributeName at h
  split at h
  · split at h
    · cases h
    · omega
  · omega

theorem decodeAttributeName_head {data : Bytes} {pos n form hdr : Nat} (hn : 12 ≤ n)
    (hform : (form = 0 ∧ hdr = 24) ∨ (form = 1 ∧ hdr = 64)) (name : Option Bytes) (k : Nat)
    (h : decodeAttributeName data pos form (u8 data (pos + 9)) (u16 data (pos + 10)) = .ok name)
    (h1 : ¬ ((u8 data (pos + 9)) = 0 ∧ k < hdr))
    (h2 : ¬ (u8 data (pos + 9) > 0 ∧ k < u16 data (pos + 10) + u8 data (pos + 9) * 2)) :
    headEnd (slice data pos (pos + n)) hdr ≤ k ∧ hdr ≤ k := by
  have e9 := rec_u8 (data := data) (pos := pos) (n := n) 9 (by omega)
  have e10 := rec_u16 (data := data) (pos := pos) (n := n) 10 (by omega)
  simp only [headEnd, e9, e10]
  unfold decodeAttributeName at h
  split
  · omega
  · rw [if_pos (by omega)] at h
    split at h
    · cases h
    · omega

theorem decodeNonresident_iff {data : Bytes} {pos n : Nat} (hpos : pos + n ≤ firstFreeByteOffset data)
    (hff : firstFreeByteOffset data ≤ data.length) (hn4 : u32 data (pos + 4) = n) (h8 : 8 ∣ n)
    (hform : u8 data (pos + 8) = 1)
    (name : Option Bytes)
    (hname : decodeAttributeName data pos 1 (u8 data (pos + 9)) (u16 data (pos + 10)) = .ok name)
    (a : AttributeRecord) (h : decodeNonresident data pos (u32 data pos) n (u8 data (pos + 9)) (u16 data (pos + 10)) name = .ok a) :
    StoredAttribute (slice data pos (pos + n)) a := by
  have hlen : (slice data pos (pos + n)).length = n := by
    rw [slice_length_of_le (by omega)]; omega
  unfold decodeNonresident at h
  split at h
  · cases h
  split at h
  · cases h
  rename_i hv
  split at h
  · cases h
  rename_i hm
  split at h
  · cases h
  rename_i hs
  split at h
  · cases h
  rename_i runs hruns
  cases h
  have hh0 := decodeAttributeName_hdr (hdr := 64) (.inr ⟨rfl, rfl⟩) name (u16 data (pos + 32)) hname
    (by omega) (by omega)
  have hh := decodeAttributeName_head (n := n) (hdr := 64) (by omega) (.inr ⟨rfl, rfl⟩) name (u16 data (pos + 32)) hname
    (by omega) (by omega)
  have hn64 : 64 < n := by omega
  have e0 := rec_u32 (data := data) (pos := pos) (n := n) 0 (by omega)
  have e4 := rec_u32 (data := data) (pos := pos) (n := n) 4 (by omega)
  have e8 := rec_u8 (data := data) (pos := pos) (n := n) 8 (by omega)
  have e16 := rec_u64 (data := data) (pos := pos) (n := n) 16 (by omega)
  have e24 := rec_u64 (data := data) (pos := pos) (n := n) 24 (by omega)
  have e32 := rec_u16 (data := data) (pos := pos) (n := n) 32 (by omega)
  simp only [Nat.add_zero, Nat.zero_add, Nat.reduceAdd] at e0 e4 e8 e16 e24 e32
  simp only [StoredAttribute, hlen, e0, e4, e8, e16, e24, e32, hn4, hform, true_and]
  rw [slice_slice' (i := 48) (j := 56) (by omega), slice_slice' (i := 56) (j := 64) (by omega),
    slice_slice' (i := 40) (j := 48) (by omega), slice_slice' (i := u16 data (pos + 32)) (Nat.le_refl _)]
  refine ⟨h8, (decodeAttributeName_iff hpos hff (.inr ⟨rfl, rfl⟩) (by omega) (by omega) name).1 hname, by omega, hh.1, hh.2,
    by omega, by rfl, by omega, by omega, by omega, by omega, hruns⟩

theorem decodeResident_iff {data : Bytes} {pos n : Nat} (hpos : pos + n ≤ firstFreeByteOffset data)
    (hff : firstFreeByteOffset data ≤ data.length) (hn4 : u32 data (pos + 4) = n) (h8 : 8 ∣ n)
    (hform : u8 data (pos + 8) = 0)
    (name : Option Bytes)
    (hname : decodeAttributeName data pos 0 (u8 data (pos + 9)) (u16 data (pos + 10)) = .ok name)
    (a : AttributeRecord) (h : decodeResident data pos (u32 data pos) n (u8 data (pos + 9)) (u16 data (pos + 10)) name = .ok a) :
    StoredAttribute (slice data pos (pos + n)) a := by
  have hlen : (slice data pos (pos + n)).length = n := by
    rw [slice_length_of_le (by omega)]; omega
  unfold decodeResident at h
  split at h
  · cases h
  split at h
  · cases h
  rename_i hv
  split at h
  · cases h
  rename_i hm
  split at h
  · cases h
  cases h
  have hh0 := decodeAttributeName_hdr (hdr := 24) (.inl ⟨rfl, rfl⟩) name (u16 data (pos + 20)) hname
    (by omega) (by omega)
  have hh := decodeAttributeName_head (n := n) (hdr := 24) (by omega) (.inl ⟨rfl, rfl⟩) name (u16 data (pos + 20)) hname
    (by omega) (by omega)
  have hn24 : 24 ≤ n := by omega
  have e0 := rec_u32 (data := data) (pos := pos) (n := n) 0 (by omega)
  have e4 := rec_u32 (data := data) (pos := pos) (n := n) 4 (by omega)
  have e8 := rec_u8 (data := data) (pos := pos) (n := n) 8 (by omega)
  have e16 := rec_u32 (data := data) (pos := pos) (n := n) 16 (by omega)
  have e20 := rec_u16 (data := data) (pos := pos) (n := n) 20 (by omega)
  simp only [Nat.add_zero, Nat.zero_add, Nat.reduceAdd] at e0 e4 e8 e16 e20
  simp only [StoredAttribute, hlen, e0, e4, e8, e16, e20, hn4, hform, true_and]
  rw [slice_slice' (i := u16 data (pos + 20)) (by omega), Nat.add_assoc]
  refine ⟨h8, (decodeAttributeName_iff hpos hff (.inl ⟨rfl, rfl⟩) (by omega) (by omega) name).1 hname, by omega, hh.1, hh.2,
    by omega, by rfl⟩

theorem StoredAttribute_length {r : Bytes} {a : AttributeRecord} (h : StoredAttribute r a) :
    24 ≤ r.length ∧ 8 ∣ r.length ∧ leNat (slice r 4 8) = r.length := by
  cases a <;> simp only [StoredAttribute] at h <;> omega

/-- Soundness of decoding one attribute record. -/
theorem decodeAttribute_sound {data : Bytes} {pos : Nat} (hff : firstFreeByteOffset data ≤ data.length)
    {a : AttributeRecord} {n : Nat} (h : decodeAttribute data pos = .ok (a, n)) :
    24 ≤ n ∧ pos + n ≤ firstFreeByteOffset data ∧ StoredAttribute (slice data pos (pos + n)) a := by
  have hl := decodeAttribute_length h
  have hs : StoredAttribute (slice data pos (pos + n)) a := by
    unfold decodeAttribute at h
    split at h
    · cases h
    split at h
    · cases h
    rename_i name hname
    split at h
    · cases h
    rename_i a' ha
    simp only [Except.ok.injEq, Prod.mk.injEq] at h
    obtain ⟨rfl, hn⟩ := h
    rw [hn] at ha
    split at ha
    · rename_i hform
      rw [hform] at hname
      exact decodeNonresident_iff hl.2.2 hff hn (by omega) hform name hname _ ha
    · split at ha
      · rename_i hform
        rw [hform] at hname
        exact decodeResident_iff hl.2.2 hff hn (by omega) hform name hname _ ha
      · cases ha
  have := StoredAttribute_length hs
  rw [slice_length_of_le (by omega)] at this
  exact ⟨by omega, hl.2.2, hs⟩

/-- Completeness of decoding one attribute record. -/
theorem decodeAttribute_complete {data : Bytes} {pos : Nat} (hff : firstFreeByteOffset data ≤ data.length)
    {a : AttributeRecord} {n : Nat} (hpos : pos + n ≤ firstFreeByteOffset data)
    (h : StoredAttribute (slice data pos (pos + n)) a) : decodeAttribute data pos = .ok (a, n) := by
  have hlen : (slice data pos (pos + n)).length = n := by
    rw [slice_length_of_le (by omega)]; omega
  have hl := StoredAttribute_length h
  rw [hlen] at hl
  obtain ⟨hl1, hl2, hl3⟩ := hl
  have e0 := rec_u32 (data := data) (pos := pos) (n := n) 0 (by omega)
  have e4 := rec_u32 (data := data) (pos := pos) (n := n) 4 (by omega)
  have e8 := rec_u8 (data := data) (pos := pos) (n := n) 8 (by omega)
  have e9 := rec_u8 (data := data) (pos := pos) (n := n) 9 (by omega)
  have e10 := rec_u16 (data := data) (pos := pos) (n := n) 10 (by omega)
  simp only [Nat.add_zero, Nat.zero_add, Nat.reduceAdd] at e0 e4 e8 e9 e10
  rw [e4] at hl3
  unfold decodeAttribute
  rw [if_neg (by omega)]
  cases a with
  | resident typeCode name value =>
    have e16 := rec_u32 (data := data) (pos := pos) (n := n) 16 (by omega)
    have e20 := rec_u16 (data := data) (pos := pos) (n := n) 20 (by omega)
    simp only [Nat.reduceAdd] at e16 e20
    simp only [StoredAttribute, hlen, e0, e4, e8, e16, e20] at h
    obtain ⟨_, _, h0, hform, hname, h20, hhe, h24, hv, hval⟩ := h
    have hd := (decodeAttributeName_iff hpos hff (.inl ⟨rfl, rfl⟩) (by omega) (by omega) name).2 hname
    simp only [hform, hd, hl3]
    simp only [headEnd, e9, e10] at hhe
    rw [if_neg (by decide), if_pos trivial]
    unfold decodeResident
    have hsl : (slice data (pos + u16 data (pos + 20)) (pos + u16 data (pos + 20) + u32 data (pos + 16))).length
        = u32 data (pos + 16) := by
      rw [slice_length_of_le (by omega)]; omega
    have hsl2 : (slice data (pos + 16) (pos + 24)).length = 8 := by
      rw [slice_length_of_le (by omega)]; omega
    rw [hsl, hsl2, if_neg (by omega), if_neg (by omega)]
    rw [slice_slice' (by omega), ← Nat.add_assoc] at hval
    rw [if_neg (by split at hhe <;> omega), if_neg (by omega), h0, hval]
  | nonresident typeCode name pairs lowest highest fileSize runs =>
    have hn64 : 64 < n := by simp only [StoredAttribute, hlen] at h; omega
    have e16 := rec_u64 (data := data) (pos := pos) (n := n) 16 (by omega)
    have e24 := rec_u64 (data := data) (pos := pos) (n := n) 24 (by omega)
    have e32 := rec_u16 (data := data) (pos := pos) (n := n) 32 (by omega)
    simp only [Nat.reduceAdd] at e16 e24 e32
    simp only [StoredAttribute, hlen, e0, e4, e8, e16, e24, e32] at h
    rw [slice_slice' (i := 48) (j := 56) (by omega), slice_slice' (i := 56) (j := 64) (by omega),
      slice_slice' (i := 40) (j := 48) (by omega), slice_slice' (i := u16 data (pos + 32)) (Nat.le_refl _)] at h
    obtain ⟨_, _, h0, hform, hname, hlo, hhi, hlh, hhe, h64, hmp, hpairs, hfs, hv1, hv2, hv3, hruns⟩ := h
    have hd := (decodeAttributeName_iff hpos hff (.inr ⟨rfl, rfl⟩) (by omega) (by omega) name).2 hname
    simp only [hform, hd, hl3]
    simp only [headEnd, e9, e10] at hhe
    rw [if_pos trivial]
    unfold decodeNonresident
    have hsl2 : (slice data (pos + 16) (pos + 64)).length = 48 := by
      rw [slice_length_of_le (by omega)]; omega
    rw [hsl2, if_neg (by omega), if_neg (by omega), if_neg (by split at hhe <;> omega), if_neg (by omega)]
    rw [hpairs] at hruns
    rw [hruns, h0, hpairs, hlo, hhi, hfs]

theorem u32_le_slice_length {data : Bytes} {pos : Nat} (h : pos + 4 ≤ data.length) (h' : u32 data pos = 0xFFFFFFFF) :
    slice data pos (pos + 4) = [0xFF, 0xFF, 0xFF, 0xFF] :=
  leNat_inj (by rw [slice_length_of_le (by omega)]; simp) (by rw [show leNat [0xFF, 0xFF, 0xFF, 0xFF] = 0xFFFFFFFF by decide]; exact h')

/-- Everything about a run of the attribute loop. -/
theorem attributesLoop_sound (data : Bytes) (pos : Nat) (hff : firstFreeByteOffset data ≤ data.length)
    (h8 : 8 ∣ pos) (r : AttributesResult) (hr : attributesLoop data pos = r) :
    (∀ it ∈ r.items, pos ≤ it.pos ∧ 8 ∣ it.pos ∧ 8 ∣ it.len ∧ 24 ≤ it.len ∧
      it.pos + it.len ≤ firstFreeByteOffset data ∧ u32 data it.pos ≠ 0xFFFFFFFF ∧
      StoredAttribute (slice data it.pos (it.pos + it.len)) it.attr) ∧
    r.items.Pairwise (fun a b => a.pos + a.len ≤ b.pos) ∧
    (r.err = none ∨ r.err = some .AttributeException ∨ r.err = some .MappingPairsException) ∧
    (∀ k, r.realSize = some k → r.err = none ∧ k = pos + (r.items.map (·.len)).sum + 4 ∧
      k ≤ data.length ∧ pos + (r.items.map (·.len)).sum < firstFreeByteOffset data ∧
      u32 data (pos + (r.items.map (·.len)).sum) = 0xFFFFFFFF) ∧
    (r.realSize = none → r.err = none → firstFreeByteOffset data ≤ pos + (r.items.map (·.len)).sum) ∧
    (r.items = [] ∨ pos + (r.items.map (·.len)).sum ≤ firstFreeByteOffset data) := by
  fun_induction attributesLoop data pos generalizing r with
  | case1 pos hlt hl h16 hend =>
    subst hr
    have h16 : (slice data pos (pos + 16)).length = 16 := h16
    rw [slice_length] at h16
    refine ⟨by simp, by simp, by simp, ?_, by simp, by simp⟩
    intro k hk
    simp only [Option.some.injEq] at hk
    refine ⟨rfl, by simp; omega, by omega, by simpa using hlt, by simpa [attrTypeEnd] using hend⟩
  | case2 pos hlt hl h16 hend e he =>
    subst hr
    have : e = .AttributeException ∨ e = .MappingPairsException := by
      unfold decodeAttribute at he
      split at he
      · cases he; left; rfl
      split at he
      · rename_i e' h
        cases he
        unfold decodeAttributeName at h
        split at h
        · split at h
          · cases h; left; rfl
          split at h
          · cases h; left; rfl
          split at h
          · cases h; left; rfl
          · cases h
        · cases h
      split at he
      · rename_i e' h
        cases he
        split at h
        · unfold decodeNonresident at h
          repeat' split at h
          all_goals first
            | (cases h; left; rfl)
            | (rename_i e'' hm; cases h; right; exact (loop_sound _ 0 []).1 _ hm)
            | cases h
        · split at h
          · unfold decodeResident at h
            repeat' split at h
            all_goals first | (cases h; left; rfl) | cases h
          · cases h; left; rfl
      · cases he
    rcases this with rfl | rfl
    all_goals
      exact ⟨by simp, by simp, by simp, by simp, by simp, by simp⟩
  | case3 pos hlt hl h16 hend a n hd hn r' ih =>
    subst hr
    have hs := decodeAttribute_sound hff hd
    have hn := decodeAttribute_length hd
    obtain ⟨i1, i2, i3, i4, i5, i6⟩ := ih (by omega) _ rfl
    refine ⟨?_, ?_, i3, ?_, ?_, ?_⟩
    · intro it hit
      rcases List.mem_cons.1 hit with rfl | hit
      · exact ⟨Nat.le_refl _, h8, by simp; omega, hs.1, hs.2.1, hend, hs.2.2⟩
      · obtain ⟨j1, j2⟩ := i1 it hit
        exact ⟨by omega, j2⟩
    · refine List.pairwise_cons.2 ⟨?_, i2⟩
      intro it hit
      exact (i1 it hit).1
    · intro k hk
      have := i4 k hk
      simp only [List.map_cons, List.sum_cons, ← Nat.add_assoc]
      exact this
    · intro h1 h2
      have := i5 h1 h2
      simp only [List.map_cons, List.sum_cons, ← Nat.add_assoc]
      exact this
    · right
      simp only [List.map_cons, List.sum_cons]
      rcases i6 with h | h
      · have : r'.items = [] := h
        rw [this]; simp; omega
      · have : pos + n + (r'.items.map (·.len)).sum ≤ firstFreeByteOffset data := h
        omega
  | case4 pos hlt hl h16 h4 hend =>
    subst hr
    have h4 : (slice data pos (pos + 16)).length ≥ 4 := h4
    rw [slice_length] at h4
    refine ⟨by simp, by simp, by simp, ?_, by simp, by simp⟩
    intro k hk
    simp only [Option.some.injEq] at hk
    refine ⟨rfl, by simp; omega, by omega, by simpa using hlt, by simpa [attrTypeEnd] using hend⟩
  | case5 => subst hr; exact ⟨by simp, by simp, by simp, by simp, by simp, by simp⟩
  | case6 => subst hr; exact ⟨by simp, by simp, by simp, by simp, by simp, by simp⟩
  | case7 pos hge => subst hr; exact ⟨by simp, by simp, by simp, by simp, by simpa using hge, by simp⟩

/-- How an enumeration ends after the last attribute: with the end marker, or at the used size. -/
theorem attributesLoop_end {data : Bytes} {pos : Nat} (hp : pos < firstFreeByteOffset data) (hl : pos + 4 ≤ data.length)
    (h : u32 data pos = 0xFFFFFFFF) : attributesLoop data pos = ⟨[], none, some (pos + 4)⟩ := by
  unfold attributesLoop
  rw [if_pos hp]
  simp only [attrTypeEnd, h, slice_length]
  split
  · rfl
  · rw [if_pos (by omega)]; rfl

/-- Completeness: a sequence of stored attributes is enumerated. -/
theorem attributesLoop_complete (data : Bytes) (hff : firstFreeByteOffset data ≤ data.length)
    (recs : List (Bytes × AttributeRecord)) (pos : Nat) (h : ∀ p ∈ recs, StoredAttribute p.1 p.2)
    (hne : ∀ p ∈ recs, leNat (slice p.1 0 4) ≠ 0xFFFFFFFF)
    (hfit : pos + (recs.map (·.1)).flatten.length ≤ firstFreeByteOffset data)
    (hdata : slice data pos (pos + (recs.map (·.1)).flatten.length) = (recs.map (·.1)).flatten) :
    ∃ items, items.map (·.attr) = recs.map (·.2) ∧ items.map (·.len) = recs.map (·.1.length) ∧
      ∀ r, attributesLoop data (pos + (recs.map (·.1)).flatten.length) = r →
        attributesLoop data pos = ⟨items ++ r.items, r.err, r.realSize⟩ := by
  induction recs generalizing pos with
  | nil =>
    refine ⟨[], rfl, rfl, ?_⟩
    intro r hr
    simp at hr
    simp [hr]
  | cons p recs ih =>
    obtain ⟨rec, a⟩ := p
    have hra : StoredAttribute rec a := h (rec, a) (by simp)
    simp only [List.map_cons, List.flatten_cons, List.length_append] at hfit hdata
    have hrlen := StoredAttribute_length hra
    generalize hrest : (recs.map (·.1)).flatten = rest at *
    have h1 : slice data pos (pos + rec.length) = rec := by
      have := congrArg (fun b => slice b 0 rec.length) hdata
      rw [slice_slice' (by omega)] at this
      simpa [slice] using this
    have h2 : slice data (pos + rec.length) (pos + rec.length + rest.length) = rest := by
      have := congrArg (fun b => slice b rec.length (rec.length + rest.length)) hdata
      rw [slice_slice' (by omega), ← Nat.add_assoc] at this
      rw [this]
      simp [slice]
    obtain ⟨items, hi1, hi2, hi3⟩ := ih (pos + rec.length) (fun r hr => h r (by simp [hr]))
      (fun r hr => hne r (by simp [hr])) (by omega) h2
    have hd := decodeAttribute_complete (data := data) (pos := pos) (a := a) hff (n := rec.length) (by omega) (by rw [h1]; exact hra)
    refine ⟨⟨pos, rec.length, a⟩ :: items, by simp [hi1], by simp [hi2], ?_⟩
    intro r hr
    have hr' := hi3 r (by rw [← hr]; simp only [List.map_cons, List.flatten_cons, List.length_append, Nat.add_assoc, hrest])
    have hne0 : u32 data pos ≠ 0xFFFFFFFF := by
      have := hne (rec, a) (by simp)
      simp only at this
      rw [← h1, slice_slice' (by omega)] at this
      exact this
    rw [attributesLoop]
    rw [if_pos (by omega)]
    simp only [slice_length]
    rw [if_pos (by omega), if_neg (by simpa [attrTypeEnd] using hne0)]
    split
    · rename_i e he
      rw [hd] at he; cases he
    · rename_i a' n' hd'
      rw [hd] at hd'
      simp only [Except.ok.injEq, Prod.mk.injEq] at hd'
      obtain ⟨rfl, rfl⟩ := hd'
      rw [hr']
      simp

end Verif.MFT
