/-
Properties C22-C24: attribute lists, index entries, extended attributes.
-/
import Verif.Spec.Attributes
namespace Verif.Props
open Verif.Attributes Verif.Spec.Attr

/-! ### C22 -/

theorem slice_at (value : Bytes) (pos i j : Nat) : slice (value.drop pos) i j = slice value (pos + i) (pos + j) := by
  apply List.ext_getElem?
  intro n
  simp only [slice_getElem?, List.getElem?_drop]
  by_cases h : n < j - i
  · rw [if_pos h, if_pos (by omega)]; congr 1; omega
  · rw [if_neg h, if_neg (by omega)]

theorem header_slice (value : Bytes) (pos i j : Nat) (h : j ≤ 26) :
    leNat (slice (slice value pos (pos + 26)) i j) = leNat (slice (value.drop pos) i j) := by
  rw [slice_slice _ _ _ _ _ (by omega), slice_at]

/-- One step of the loop at a place with a valid entry. -/
theorem attributeListLoop_step (value : Bytes) (pos : Nat) (e : AttributeListEntry)
    (hf : ListFields (value.drop pos) e) (hl : ListLength (value.drop pos)) :
    attributeListLoop value pos = e :: attributeListLoop value (pos + align8 (listLength (value.drop pos))) := by
  obtain ⟨f1, f2, f3, f4, f5, f6⟩ := hf
  obtain ⟨l1, l2⟩ := hl
  rw [List.length_drop] at f1
  have e4 : u16 (slice value pos (pos + 26)) 4 = listLength (value.drop pos) := header_slice _ _ _ _ (by omega)
  have e6 : u8 (slice value pos (pos + 26)) 6 = leNat (slice (value.drop pos) 6 7) := header_slice _ _ _ _ (by omega)
  have e7 : u8 (slice value pos (pos + 26)) 7 = leNat (slice (value.drop pos) 7 8) := header_slice _ _ _ _ (by omega)
  have e0 : u32 (slice value pos (pos + 26)) 0 = e.typeCode := (header_slice _ _ _ _ (by omega)).trans f2
  have e8 : u64 (slice value pos (pos + 26)) 8 = e.lowestVcn := (header_slice _ _ _ _ (by omega)).trans f3
  have e16 : u64 (slice value pos (pos + 26)) 16 = e.segmentReference := (header_slice _ _ _ _ (by omega)).trans f4
  have e24 : u16 (slice value pos (pos + 26)) 24 = e.instanceNumber := (header_slice _ _ _ _ (by omega)).trans f5
  rw [attributeListLoop]
  rw [if_pos (by omega)]
  dsimp only
  rw [if_neg (by rw [slice_length]; omega), e4, e6, e7, e0, e8, e16, e24, if_neg (by omega), if_neg (by omega)]
  congr 1
  obtain ⟨t, n, ins, v, r⟩ := e
  dsimp only at *
  congr 1
  cases n with
  | none =>
    have f6 : leNat (slice (value.drop pos) 6 7) = 0 := f6
    rw [f6, if_neg (by omega)]
  | some s =>
    obtain ⟨f6, rfl⟩ := f6
    rw [if_pos f6, slice_at value pos (leNat _), Nat.mul_comm 2, Nat.add_assoc]

theorem align8_of_padded {n m : Nat} (h : 8 ∣ m ∧ n ≤ m ∧ m < n + 8) : align8 n = m := by
  unfold align8; split <;> omega

theorem listFields_append {a b : Bytes} {e : AttributeListEntry} (h : ListFields a e) (hl : ListLength a) (hle : listLength a ≤ a.length) :
    ListFields (a ++ b) e ∧ ListLength (a ++ b) ∧ listLength (a ++ b) = listLength a := by
  obtain ⟨f1, f2, f3, f4, f5, f6⟩ := h
  obtain ⟨l1, l2⟩ := hl
  have hs : ∀ i j, j ≤ 26 → slice (a ++ b) i j = slice a i j := fun i j hj => slice_append_left _ _ _ _ (by omega)
  have e4 : listLength (a ++ b) = listLength a := by unfold listLength; rw [hs _ _ (by omega)]
  refine ⟨⟨by rw [List.length_append]; omega, by rw [hs _ _ (by omega)]; exact f2, by rw [hs _ _ (by omega)]; exact f3,
    by rw [hs _ _ (by omega)]; exact f4, by rw [hs _ _ (by omega)]; exact f5, ?_⟩, ⟨by rw [e4]; exact l1, ?_⟩, e4⟩
  · obtain ⟨t, n, ins, v, r⟩ := e
    cases n with
    | none => show leNat _ = 0; rw [hs _ _ (by omega)]; exact f6
    | some s =>
      obtain ⟨g1, g2⟩ := f6
      refine ⟨by rw [hs _ _ (by omega)]; exact g1, ?_⟩
      rw [hs 6 7 (by omega), hs 7 8 (by omega), slice_append_left _ _ _ _ (by omega)]
      exact g2
  · rw [hs _ _ (by omega), hs _ _ (by omega), e4]; exact l2

theorem attributeListLoop_end (value : Bytes) (pos : Nat) (h : value.length < pos + 26) : attributeListLoop value pos = [] := by
  rw [attributeListLoop]
  split
  · dsimp only; rw [if_pos (by rw [slice_length]; omega)]
  · rfl

theorem attributeListLoop_complete (value : Bytes) (last : Bytes) : ∀ (recs : List (Bytes × AttributeListEntry)) (pos : Nat),
    (∀ p ∈ recs, StoredListEntry p.1 p.2) → value.drop pos = (recs.map (·.1)).flatten ++ last →
    attributeListLoop value pos = recs.map (·.2) ++ attributeListLoop value (pos + ((recs.map (·.1)).flatten).length)
  | [], pos, _, _ => by simp
  | (rec, e) :: recs, pos, h, hv => by
    have h1 := h (rec, e) (List.mem_cons_self ..)
    dsimp only at h1
    simp only [List.map_cons, List.flatten_cons, List.append_assoc] at hv
    obtain ⟨a1, a2, a3⟩ := listFields_append (b := (recs.map (·.1)).flatten ++ last) h1.fields h1.length h1.padded.2.1
    rw [← hv] at a1 a2 a3
    rw [attributeListLoop_step value pos e a1 a2, a3, align8_of_padded h1.padded]
    rw [attributeListLoop_complete value last recs (pos + rec.length) (fun p hp => h p (List.mem_cons_of_mem _ hp)) (by
      rw [← List.drop_drop, hv, List.drop_left])]
    simp [Nat.add_assoc]

/-- C22: a value that consists of stored list entries (any number, any names), followed by at most 25
bytes that cannot be an entry, is parsed into exactly those entries, in order. -/
theorem C22_roundtrip (recs : List (Bytes × AttributeListEntry)) (trailing : Bytes)
    (h : ∀ p ∈ recs, StoredListEntry p.1 p.2) (ht : trailing.length < 26) :
    attributeListEntries ((recs.map (·.1)).flatten ++ trailing) = recs.map (·.2) := by
  unfold attributeListEntries
  rw [attributeListLoop_complete _ trailing recs 0 h (by simp), attributeListLoop_end _ _ (by rw [List.length_append]; omega),
    List.append_nil]

/-- C22: the same when the last entry is not padded. -/
theorem C22_roundtrip_unpadded (recs : List (Bytes × AttributeListEntry)) (last : Bytes) (e : AttributeListEntry)
    (h : ∀ p ∈ recs, StoredListEntry p.1 p.2) (hf : ListFields last e) (hl : ListLength last) (hlen : last.length = listLength last) :
    attributeListEntries ((recs.map (·.1)).flatten ++ last) = recs.map (·.2) ++ [e] := by
  unfold attributeListEntries
  rw [attributeListLoop_complete _ last recs 0 h (by simp)]
  congr 1
  rw [Nat.zero_add]
  have hd : ((recs.map (·.1)).flatten ++ last).drop ((recs.map (·.1)).flatten).length = last := List.drop_left
  rw [attributeListLoop_step _ _ e (by rw [hd]; exact hf) (by rw [hd]; exact hl), attributeListLoop_end]
  rw [hd, List.length_append]
  have := align8_ge (listLength last)
  omega

/-- C22 is not vacuous: an entry with the name `$I30` and one without a name. -/
def demoListEntry : Bytes := natLE 4 0xA0 ++ natLE 2 0x28 ++ [4, 0x1A] ++ natLE 8 7 ++ natLE 8 0x0005000000000021 ++ natLE 2 3 ++
  [0x24, 0, 0x49, 0, 0x33, 0, 0x30, 0] ++ zeros 6
example : StoredListEntry demoListEntry ⟨0xA0, some (Str.ofString "$I30"), 3, 7, 0x0005000000000021⟩ ∧
    attributeListEntries (demoListEntry ++ natLE 4 0x80 ++ natLE 2 26 ++ [0, 26] ++ zeros 16 ++ natLE 2 9) =
      [⟨0xA0, some (Str.ofString "$I30"), 3, 7, 0x0005000000000021⟩, ⟨0x80, none, 9, 0, 0⟩] := by
  refine ⟨⟨⟨by decide, by decide +kernel, by decide +kernel, by decide +kernel, by decide +kernel, ?_⟩, ⟨by decide +kernel, by decide +kernel⟩, by decide +kernel⟩, by decide +kernel⟩
  show 0 < _ ∧ _; decide +kernel

/-- C22: for every byte string, parsing ends (the function is total and raises nothing), and the
entries are the contents of places inside the value that do not overlap, in increasing order. -/
theorem C22_sound (value : Bytes) : ∃ places : List Nat, places.length = (attributeListEntries value).length ∧
    (∀ p ∈ places.zip (attributeListEntries value), p.1 + 26 ≤ value.length ∧ 8 ∣ p.1 ∧
      ListFields (value.drop p.1) p.2 ∧ ListLength (value.drop p.1)) ∧
    places.Pairwise (fun a b => a + listLength (value.drop a) ≤ b) := by
  unfold attributeListEntries
  have key : ∀ pos, 8 ∣ pos → ∃ places : List Nat, places.length = (attributeListLoop value pos).length ∧
      (∀ p ∈ places.zip (attributeListLoop value pos), pos ≤ p.1 ∧ p.1 + 26 ≤ value.length ∧ 8 ∣ p.1 ∧
        ListFields (value.drop p.1) p.2 ∧ ListLength (value.drop p.1)) ∧ (∀ p ∈ places, pos ≤ p) ∧
      places.Pairwise (fun a b => a + listLength (value.drop a) ≤ b) := by
    intro pos
    fun_induction attributeListLoop value pos with
    | case1 => intro _; exact ⟨[], by simp⟩
    | case2 => intro _; exact ⟨[], by simp⟩
    | case3 => intro _; exact ⟨[], by simp⟩
    | case4 pos hlt header hh tc rl nl no lv sr ins h1 h2 nm ih =>
      intro h8
      have hh : (slice value pos (pos + 26)).length = 26 := Decidable.of_not_not hh
      rw [slice_length] at hh
      have e4 : rl = listLength (value.drop pos) := header_slice _ _ _ _ (by omega)
      have e6 : nl = leNat (slice (value.drop pos) 6 7) := header_slice _ _ _ _ (by omega)
      have e7 : no = leNat (slice (value.drop pos) 7 8) := header_slice _ _ _ _ (by omega)
      have ha : 8 ∣ align8 rl := by unfold align8; split <;> omega
      have hge := align8_ge rl
      obtain ⟨pl, p1, p2, p3, p4⟩ := ih (by omega)
      refine ⟨pos :: pl, by simp [p1], ?_, ?_, ?_⟩
      · intro p hp
        rw [List.zip_cons_cons, List.mem_cons] at hp
        rcases hp with rfl | hp
        · refine ⟨Nat.le_refl _, by dsimp only; omega, h8, ⟨by rw [List.length_drop]; omega, (header_slice _ _ _ _ (by omega)).symm,
            (header_slice _ _ _ _ (by omega)).symm, (header_slice _ _ _ _ (by omega)).symm, (header_slice _ _ _ _ (by omega)).symm, ?_⟩,
            ⟨by rw [← e4]; omega, by rw [← e4, ← e6, ← e7]; omega⟩⟩
          dsimp only
          by_cases hn : nl > 0
          · rw [show nm = some (utf16Decode (slice value (pos + no) (pos + no + nl * 2))) from if_pos hn]
            refine ⟨by rw [← e6]; exact hn, ?_⟩
            rw [← e6, ← e7, slice_at, Nat.mul_comm 2, Nat.add_assoc]
          · rw [show nm = none from if_neg hn]
            show leNat _ = 0
            rw [← e6]; omega
        · obtain ⟨q1, q2⟩ := p2 p hp
          exact ⟨by omega, q2⟩
      · intro p hp
        rcases List.mem_cons.1 hp with rfl | hp
        · exact Nat.le_refl _
        · have := p3 p hp; omega
      · refine List.pairwise_cons.2 ⟨?_, p4⟩
        intro b hb
        rw [← e4]
        have := p3 b hb; omega
    | case5 => intro _; exact ⟨[], by simp⟩
  obtain ⟨pl, h1, h2, -, h4⟩ := key 0 (by simp)
  exact ⟨pl, h1, fun p hp => (h2 p hp).2, h4⟩

/-- C22, "entries lying inside the value", is false in one respect: the name of the last entry may
stick out of the value, and is then silently cut. -/
theorem C22_truncated_name_accepted : ∃ value, value.length = 28 ∧
    attributeListEntries value = [⟨0x80, some (Str.ofString "A"), 0, 0, 0⟩] ∧ leNat (slice value 6 7) = 4 :=
  ⟨natLE 4 0x80 ++ natLE 2 40 ++ [4, 26] ++ zeros 18 ++ [0x41, 0], by decide, by decide +kernel, by decide +kernel⟩

/-! ### C23 -/

theorem unpackLE_ok {n : Nat} {b : Bytes} {v : Nat} (h : unpackLE n b = .ok v) : b.length = n ∧ leNat b = v := by
  unfold unpackLE at h
  split at h
  · cases h; exact ⟨by assumption, rfl⟩
  · cases h

theorem unpackLE_error {n : Nat} {b : Bytes} {e : Exc} (h : unpackLE n b = .error e) : b.length ≠ n ∧ e = .StructError := by
  unfold unpackLE at h
  split at h
  · cases h
  · cases h; exact ⟨by assumption, rfl⟩

theorem unpackLE_of_length {n : Nat} {b : Bytes} (h : b.length = n) : unpackLE n b = .ok (leNat b) := if_pos h

/-- The length of the entry at `pos`. -/
def entryLength (node : Bytes) (pos : Nat) : Nat := leNat (slice node (pos + 8) (pos + 10))

theorem entry_length_ok {node : Bytes} {pos v : Nat} (h : (IndexEntry.mk pos (node.drop pos)).length = .ok v) :
    pos + 10 ≤ node.length ∧ v = entryLength node pos := by
  obtain ⟨h1, h2⟩ := unpackLE_ok h
  rw [slice_at] at h1 h2
  rw [slice_length] at h1
  exact ⟨by omega, h2.symm⟩

theorem entry_alen_ok {node : Bytes} {pos v : Nat} (h : (IndexEntry.mk pos (node.drop pos)).attributeLength = .ok v) :
    pos + 12 ≤ node.length ∧ v = leNat (slice node (pos + 10) (pos + 12)) := by
  obtain ⟨h1, h2⟩ := unpackLE_ok h
  rw [slice_at] at h1 h2
  rw [slice_length] at h1
  exact ⟨by omega, h2.symm⟩

theorem indexEntriesLoop_sound (stop : Bool) (node : Bytes) (limit pos : Nat) :
    (∀ e ∈ (indexEntriesLoop stop node limit pos).items, pos ≤ e.pos ∧ e.pos < limit ∧ e.pos + 12 ≤ node.length ∧
      e.raw = node.drop e.pos ∧ 16 ≤ entryLength node e.pos ∧ 0 < leNat (slice node (e.pos + 10) (e.pos + 12))) ∧
    (indexEntriesLoop stop node limit pos).items.Pairwise (fun a b => a.pos + entryLength node a.pos ≤ b.pos) ∧
    ((indexEntriesLoop stop node limit pos).err = none ∨ (indexEntriesLoop stop node limit pos).err = some .StructError) := by
  fun_induction indexEntriesLoop stop node limit pos with
  | case1 pos hlt entry e he => exact ⟨by simp, by simp, .inr (by rw [Gen.err_fail, (unpackLE_error he).2])⟩
  | case2 => exact ⟨by simp, by simp, .inl rfl⟩
  | case3 pos hlt entry len hl h16 e he => exact ⟨by simp, by simp, .inr (by rw [Gen.err_fail, (unpackLE_error he).2])⟩
  | case4 => exact ⟨by simp, by simp, .inl rfl⟩
  | case5 pos hlt entry len hl h16 alen ha hz hst e he =>
    obtain ⟨a1, a2⟩ := entry_length_ok hl
    obtain ⟨b1, b2⟩ := entry_alen_ok ha
    refine ⟨?_, by simp, .inr (by rw [Gen.err_cons, Gen.err_fail, (unpackLE_error he).2])⟩
    intro x hx
    simp only [Gen.items_cons, Gen.items_fail, List.mem_singleton] at hx
    subst hx
    exact ⟨Nat.le_refl _, hlt.1, b1, rfl, by show 16 ≤ entryLength node pos; omega, by show 0 < leNat (slice node (pos + 10) (pos + 12)); omega⟩
  | case6 pos hlt entry len hl h16 alen ha hz hst fl he hf =>
    obtain ⟨a1, a2⟩ := entry_length_ok hl
    obtain ⟨b1, b2⟩ := entry_alen_ok ha
    refine ⟨?_, by simp, .inl rfl⟩
    intro x hx
    simp only [Gen.items_cons, Gen.items_done, List.mem_singleton] at hx
    subst hx
    exact ⟨Nat.le_refl _, hlt.1, b1, rfl, by show 16 ≤ entryLength node pos; omega, by show 0 < leNat (slice node (pos + 10) (pos + 12)); omega⟩
  | case7 pos hlt entry len hl h16 alen ha hz hst fl he hf ih =>
    obtain ⟨a1, a2⟩ := entry_length_ok hl
    obtain ⟨b1, b2⟩ := entry_alen_ok ha
    obtain ⟨i1, i2, i3⟩ := ih
    have hge := align8_ge len
    refine ⟨?_, ?_, i3⟩
    · intro x hx
      rw [Gen.items_cons, List.mem_cons] at hx
      rcases hx with rfl | hx
      · exact ⟨Nat.le_refl _, hlt.1, b1, rfl, by show 16 ≤ entryLength node pos; omega, by show 0 < leNat (slice node (pos + 10) (pos + 12)); omega⟩
      · obtain ⟨c1, c2⟩ := i1 x hx
        exact ⟨by omega, c2⟩
    · rw [Gen.items_cons, List.pairwise_cons]
      refine ⟨?_, i2⟩
      intro x hx
      have := (i1 x hx).1
      show pos + entryLength node pos ≤ _
      omega
  | case8 pos hlt entry len hl h16 alen ha hz hstop ih =>
    obtain ⟨a1, a2⟩ := entry_length_ok hl
    obtain ⟨b1, b2⟩ := entry_alen_ok ha
    obtain ⟨i1, i2, i3⟩ := ih
    have hge := align8_ge len
    refine ⟨?_, ?_, i3⟩
    · intro x hx
      rw [Gen.items_cons, List.mem_cons] at hx
      rcases hx with rfl | hx
      · exact ⟨Nat.le_refl _, hlt.1, b1, rfl, by show 16 ≤ entryLength node pos; omega, by show 0 < leNat (slice node (pos + 10) (pos + 12)); omega⟩
      · obtain ⟨c1, c2⟩ := i1 x hx
        exact ⟨by omega, c2⟩
    · rw [Gen.items_cons, List.pairwise_cons]
      refine ⟨?_, i2⟩
      intro x hx
      have := (i1 x hx).1
      show pos + entryLength node pos ≤ _
      omega
  | case9 => exact ⟨by simp, by simp, .inl rfl⟩

/-- C23 (partial): listing the entries of an index root (`base = 16`) or an index buffer (`base = 24`)
ends for every byte string.  Every listed entry starts inside the used part of the node, its header is
inside the node, its declared size is at least 16 and it has a key; entries do not overlap.  The only
exception is `struct.error`.  Missing: that the entry lies inside the node as a whole
(`C23_entry_outside_accepted`), and that no exception is raised (`C23_struct_error`). -/
theorem C23_sound_partial (node : Bytes) (base : Nat) (stop : Bool) :
    let g := indexEntriesAt stop node base
    (∀ e ∈ g.items, base + leNat (slice node base (base + 4)) ≤ e.pos ∧ e.pos < base + leNat (slice node (base + 4) (base + 8)) ∧
      e.pos + 12 ≤ node.length ∧ e.raw = node.drop e.pos ∧ 16 ≤ entryLength node e.pos ∧
      0 < leNat (slice node (e.pos + 10) (e.pos + 12))) ∧
    g.items.Pairwise (fun a b => a.pos + entryLength node a.pos ≤ b.pos) ∧ (g.err = none ∨ g.err = some .StructError) := by
  dsimp only
  unfold indexEntriesAt
  split
  · rename_i e he; exact ⟨by simp, by simp, .inr (by rw [Gen.err_fail, (unpackLE_error he).2])⟩
  rename_i first hf
  split
  · rename_i e he; exact ⟨by simp, by simp, .inr (by rw [Gen.err_fail, (unpackLE_error he).2])⟩
  rename_i free hfr
  rw [(unpackLE_ok hf).2, (unpackLE_ok hfr).2]
  exact indexEntriesLoop_sound stop node _ _

theorem testBit_and_two {n : Nat} (h : n.testBit 1 = false) : ¬ n &&& 2 > 0 := by
  intro hc
  have : n &&& 2 = 0 := by
    apply Nat.eq_of_testBit_eq
    intro i
    rw [Nat.testBit_and, Nat.zero_testBit]
    by_cases hi : i = 1
    · subst hi; rw [h]; rfl
    · have : (2 : Nat).testBit i = false := by
        rw [show (2 : Nat) = 2 ^ 1 from rfl, Nat.testBit_two_pow]; simp; omega
      rw [this, Bool.and_false]
  omega

theorem indexEntriesLoop_step (stop : Bool) (node : Bytes) (limit pos : Nat) (r rest : Bytes) (hr : StoredIndexEntry r)
    (hpos : pos < limit) (hn : node.drop pos = r ++ rest) :
    indexEntriesLoop stop node limit pos = .cons ⟨pos, node.drop pos⟩ (indexEntriesLoop stop node limit (pos + r.length)) := by
  obtain ⟨r1, r2, r3, r4, r5⟩ := hr
  have hlen := congrArg List.length hn
  rw [List.length_drop, List.length_append] at hlen
  have hs : ∀ i j, j ≤ 16 → slice (node.drop pos) i j = slice r i j := by
    intro i j hj; rw [hn, slice_append_left _ _ _ _ (by omega)]
  have hu : ∀ i j, i ≤ j → j ≤ 16 → unpackLE (j - i) (slice (node.drop pos) i j) = .ok (leNat (slice r i j)) := by
    intro i j hij hj
    rw [hs i j hj, unpackLE_of_length]
    rw [slice_length]; omega
  have l1 : (IndexEntry.mk pos (node.drop pos)).length = .ok r.length := by
    have := hu 8 10 (by omega) (by omega); rw [r1] at this; exact this
  have l2 : (IndexEntry.mk pos (node.drop pos)).attributeLength = .ok (leNat (slice r 10 12)) := hu 10 12 (by omega) (by omega)
  have l3 : (IndexEntry.mk pos (node.drop pos)).flags = .ok (leNat (slice r 12 14)) := hu 12 14 (by omega) (by omega)
  have l4 : align8 r.length = r.length := by unfold align8; rw [if_pos (by omega)]
  rw [indexEntriesLoop]
  rw [if_pos ⟨hpos, by omega⟩]
  dsimp only
  rw [l1]
  dsimp only
  rw [if_neg (by omega), l2]
  dsimp only
  rw [if_neg (by omega), l3, l4]
  dsimp only
  rw [if_neg (testBit_and_two r5)]
  cases stop <;> rfl

theorem indexEntriesLoop_complete (stop : Bool) (node : Bytes) (limit : Nat) : ∀ (recs : List Bytes) (rest : Bytes) (pos : Nat),
    (∀ r ∈ recs, StoredIndexEntry r) → pos + recs.flatten.length ≤ limit → node.drop pos = recs.flatten ++ rest →
    (indexEntriesLoop stop node limit (pos + recs.flatten.length) = .done) →
    ∃ items, indexEntriesLoop stop node limit pos = ⟨items, none⟩ ∧ items.length = recs.length ∧
      ∀ p ∈ items.zip recs, p.1.raw = node.drop p.1.pos ∧ p.1.raw.take p.2.length = p.2
  | [], rest, pos, _, _, _, hd => ⟨[], by rw [List.flatten_nil, List.length_nil, Nat.add_zero] at hd; exact hd, rfl, by simp⟩
  | r :: recs, rest, pos, h, hl, hn, hd => by
    simp only [List.flatten_cons, List.length_append, List.append_assoc] at hl hn hd
    have hr := h r (List.mem_cons_self ..)
    have hge := hr.atLeast
    obtain ⟨items, i1, i2, i3⟩ := indexEntriesLoop_complete stop node limit recs rest (pos + r.length)
      (fun x hx => h x (List.mem_cons_of_mem _ hx)) (by omega) (by rw [← List.drop_drop, hn, List.drop_left])
      (by rw [Nat.add_assoc]; exact hd)
    refine ⟨⟨pos, node.drop pos⟩ :: items, ?_, by simp [i2], ?_⟩
    · rw [indexEntriesLoop_step stop node limit pos r _ hr (by omega) hn, i1]; rfl
    · intro p hp
      rw [List.zip_cons_cons, List.mem_cons] at hp
      rcases hp with rfl | hp
      · refine ⟨rfl, ?_⟩
        dsimp only
        rw [hn, List.take_left]
      · exact i3 p hp

/-- C23: in a well-formed node - a header of 16 bytes at `base`, then stored entries, which either fill
the used part or are followed by the end entry - exactly those entries are listed, in order, without
an exception. -/
theorem C23_complete (node pre : Bytes) (recs : List Bytes) (rest : Bytes) (base : Nat) (stop : Bool)
    (hnode : node = pre ++ recs.flatten ++ rest) (hbase : base + 8 ≤ pre.length)
    (hfirst : base + leNat (slice node base (base + 4)) = pre.length)
    (hr : ∀ r ∈ recs, StoredIndexEntry r)
    (hend : base + leNat (slice node (base + 4) (base + 8)) = pre.length + recs.flatten.length ∨
      (pre.length + recs.flatten.length < base + leNat (slice node (base + 4) (base + 8)) ∧ EndEntry rest)) :
    ∃ items, indexEntriesAt stop node base = ⟨items, none⟩ ∧ items.length = recs.length ∧
      ∀ p ∈ items.zip recs, p.1.raw = node.drop p.1.pos ∧ p.1.raw.take p.2.length = p.2 := by
  have hlen := congrArg List.length hnode
  simp only [List.length_append] at hlen
  unfold indexEntriesAt
  rw [unpackLE_of_length (by rw [slice_length]; omega), unpackLE_of_length (by rw [slice_length]; omega)]
  dsimp only
  rw [hfirst]
  have hd : node.drop pre.length = recs.flatten ++ rest := by rw [hnode, List.append_assoc, List.drop_left]
  apply indexEntriesLoop_complete stop node _ recs rest pre.length hr
  · rcases hend with h | h <;> omega
  · exact hd
  · rcases hend with h | ⟨h, ⟨g1, g2⟩⟩
    · rw [indexEntriesLoop, if_neg (by omega)]
    · have hdr : node.drop (pre.length + recs.flatten.length) = rest := by
        rw [← List.drop_drop, hd, List.drop_left]
      rw [indexEntriesLoop, if_pos ⟨h, by omega⟩, hdr]
      dsimp only
      have l1 : (IndexEntry.mk (pre.length + recs.flatten.length) rest).length = .ok (leNat (slice rest 8 10)) :=
        unpackLE_of_length (by rw [slice_length]; show min _ (rest.length - _) = _; omega)
      have l2 : (IndexEntry.mk (pre.length + recs.flatten.length) rest).attributeLength = .ok (leNat (slice rest 10 12)) :=
        unpackLE_of_length (by rw [slice_length]; show min _ (rest.length - _) = _; omega)
      rw [l1, l2, g2]
      dsimp only
      split <;> rfl

/-- C23 is not vacuous: an index root with one entry (of 24 bytes) and the end entry. -/
def demoIndexEntry : Bytes := natLE 8 5 ++ natLE 2 24 ++ natLE 2 8 ++ natLE 2 0 ++ zeros 2 ++ [1, 2, 3, 4, 5, 6, 7, 8]
def demoIndexEnd : Bytes := zeros 8 ++ natLE 2 16 ++ natLE 2 0 ++ natLE 2 2 ++ zeros 2
def demoIndexRoot : Bytes := zeros 16 ++ natLE 4 16 ++ natLE 4 56 ++ natLE 4 56 ++ zeros 4 ++ demoIndexEntry ++ demoIndexEnd
example : StoredIndexEntry demoIndexEntry ∧ EndEntry demoIndexEnd ∧
    (indexRootEntries demoIndexRoot).items.map (fun e => (e.pos, e.attribute)) = [(32, .ok (some [1, 2, 3, 4, 5, 6, 7, 8]))] :=
  ⟨by constructor <;> decide +kernel, by constructor <;> decide +kernel, by decide +kernel⟩

/-- "Every entry lies inside the node" is false of the code: an entry that declares more bytes than
the node has is listed. -/
theorem C23_entry_outside_accepted : ∃ node e, (indexRootEntries node).items = [e] ∧
    node.length < e.pos + entryLength node e.pos ∧ (indexRootEntries node).err = none :=
  ⟨zeros 16 ++ natLE 4 16 ++ natLE 4 56 ++ natLE 4 56 ++ zeros 4 ++ (natLE 8 5 ++ natLE 2 4096 ++ natLE 2 8 ++ zeros 4),
    ⟨32, natLE 8 5 ++ natLE 2 4096 ++ natLE 2 8 ++ zeros 4⟩, by decide +kernel, by decide +kernel, by decide +kernel⟩

/-- Listing can end with the internal exception `struct.error`: a node that is cut in the header of an
entry. -/
theorem C23_struct_error : ∃ node, (indexRootEntries node).err = some .StructError :=
  ⟨zeros 16 ++ natLE 4 16 ++ natLE 4 56 ++ natLE 4 56 ++ zeros 4 ++ zeros 5, by decide +kernel⟩

theorem and_two_eq_zero (n : Nat) : n &&& 2 = 0 ↔ n.testBit 1 = false := by
  constructor
  · intro h
    have := congrArg (fun m => m.testBit 1) h
    rw [Nat.testBit_and, show Nat.testBit 2 1 = true by decide, Bool.and_true, Nat.zero_testBit] at this
    exact this
  · intro h
    apply Nat.eq_of_testBit_eq
    intro i
    rw [Nat.testBit_and, Nat.zero_testBit]
    rcases Nat.decEq i 1 with hi | hi
    · rw [show (2 : Nat) = 2 ^ 1 from rfl, Nat.testBit_two_pow_of_ne (by omega), Bool.and_false]
    · rw [hi, h, Bool.false_and]

/-- C23: the key of a listed entry is the bytes from its offset 16 on, as many as its key length; the end
entry and an entry without a key have none; an entry whose header is cut raises `struct.error`. -/
theorem C23_attribute (e : IndexEntry) : e.attribute =
    if e.raw.length < 14 then .error .StructError
    else if (leNat (slice e.raw 12 14)).testBit 1 = false ∧ 0 < leNat (slice e.raw 10 12) then
      .ok (some (slice e.raw 16 (16 + leNat (slice e.raw 10 12))))
    else .ok none := by
  unfold IndexEntry.attribute IndexEntry.attributeLength IndexEntry.flags
  by_cases h : e.raw.length < 14
  · rw [if_pos h]
    cases h1 : unpackLE 2 (slice e.raw 10 12) with
    | error x => rw [(unpackLE_error h1).2]
    | ok n =>
      cases h2 : unpackLE 2 (slice e.raw 12 14) with
      | error x => dsimp only; rw [(unpackLE_error h2).2]
      | ok fl => have := (unpackLE_ok h2).1; rw [slice_length] at this; omega
  · rw [if_neg h, unpackLE_of_length (by rw [slice_length]; omega), unpackLE_of_length (by rw [slice_length]; omega)]
    simp only [and_two_eq_zero, gt_iff_lt]

/-- The hypotheses of `C23_attribute` in use: an entry with the key `01 02 03 04`. -/
example : (⟨0, zeros 8 ++ natLE 2 24 ++ natLE 2 4 ++ zeros 4 ++ [1, 2, 3, 4, 0, 0, 0, 0]⟩ : IndexEntry).attribute =
    .ok (some [1, 2, 3, 4]) := by decide +kernel

/-- C23: the slack of an index buffer is everything from the first free byte on, so that every enumerated entry
starts before it, and nothing else is between the last used byte and the slack. -/
theorem C23_slack (buffer slack : Bytes) (h : indexBufferSlack buffer = .ok slack) :
    slack = buffer.drop (24 + leNat (slice buffer 28 32)) ∧
    ∀ e ∈ (indexBufferEntries buffer).items, e.pos < 24 + leNat (slice buffer 28 32) := by
  refine ⟨?_, fun e he => ((C23_sound_partial buffer 24 true).1 e he).2.1⟩
  unfold indexBufferSlack at h
  split at h
  · cases h
  · rename_i free hf
    injection h with h
    rw [← h]
    unfold unpackLE at hf
    split at hf
    · injection hf with hf; rw [hf]
    · cases hf

/-- The slack in use: two bytes after the first free byte. -/
example : indexBufferSlack (zeros 28 ++ natLE 4 16 ++ zeros 8 ++ [1, 2]) = .ok [1, 2] := by decide +kernel

/-! ### C24 -/

theorem eaRecord_length (next : Nat) (t : ExtendedAttribute) : (eaRecord next t).length = 8 + t.name.length + t.value.length := by
  simp [eaRecord, natLE_length]; omega

theorem eaLoop_step (next : Nat) (t : ExtendedAttribute) (h : Storable t) (hn : next < 2 ^ 32) (rest : Bytes)
    (hle : next ≤ (eaRecord next t ++ rest).length) :
    eaLoop (eaRecord next t ++ rest) = t :: if next = 0 then [] else eaLoop ((eaRecord next t ++ rest).drop next) := by
  obtain ⟨h1, ⟨h2, h3⟩, h4⟩ := h
  have hlen := eaRecord_length next t
  have hname : 1 ≤ t.name.length := by
    cases hh : t.name with
    | nil => rw [hh] at h2; cases h2
    | cons a l => simp
  have e0 : u32 (eaRecord next t ++ rest) 0 = next := by
    have : slice (eaRecord next t ++ rest) 0 4 = natLE 4 next := by
      have := slice_mid [] (natLE 4 next) (natLE 1 t.flags ++ natLE 1 (t.name.length - 1) ++ natLE 2 t.value.length ++ t.name ++ t.value ++ rest) 0 4
        (by simp) (by simp [natLE_length])
      simpa [eaRecord] using this
    unfold u32; rw [this, leNat_natLE_of_lt (by omega)]
  have e4 : u8 (eaRecord next t ++ rest) 4 = t.flags := by
    have : slice (eaRecord next t ++ rest) 4 5 = natLE 1 t.flags := by
      have := slice_mid (natLE 4 next) (natLE 1 t.flags) (natLE 1 (t.name.length - 1) ++ natLE 2 t.value.length ++ t.name ++ t.value ++ rest) 4 5
        (by simp [natLE_length]) (by simp [natLE_length])
      simpa [eaRecord] using this
    unfold u8; rw [this, leNat_natLE_of_lt (by omega)]
  have e5 : u8 (eaRecord next t ++ rest) 5 = t.name.length - 1 := by
    have : slice (eaRecord next t ++ rest) 5 6 = natLE 1 (t.name.length - 1) := by
      have := slice_mid (natLE 4 next ++ natLE 1 t.flags) (natLE 1 (t.name.length - 1)) (natLE 2 t.value.length ++ t.name ++ t.value ++ rest) 5 6
        (by simp [natLE_length]) (by simp [natLE_length])
      simpa [eaRecord] using this
    unfold u8; rw [this, leNat_natLE_of_lt (by omega)]
  have e6 : u16 (eaRecord next t ++ rest) 6 = t.value.length := by
    have : slice (eaRecord next t ++ rest) 6 8 = natLE 2 t.value.length := by
      have := slice_mid (natLE 4 next ++ natLE 1 t.flags ++ natLE 1 (t.name.length - 1)) (natLE 2 t.value.length) (t.name ++ t.value ++ rest) 6 8
        (by simp [natLE_length]) (by simp [natLE_length])
      simpa [eaRecord] using this
    unfold u16; rw [this, leNat_natLE_of_lt (by omega)]
  have e8 : slice (eaRecord next t ++ rest) 8 (8 + (t.name.length - 1) + 1) = t.name := by
    have := slice_mid (natLE 4 next ++ natLE 1 t.flags ++ natLE 1 (t.name.length - 1) ++ natLE 2 t.value.length) t.name (t.value ++ rest) 8
      (8 + (t.name.length - 1) + 1) (by simp [natLE_length]) (by simp [natLE_length]; omega)
    simpa [eaRecord] using this
  have e9 : slice (eaRecord next t ++ rest) (8 + (t.name.length - 1) + 1) (8 + (t.name.length - 1) + 1 + t.value.length) = t.value := by
    have := slice_mid (natLE 4 next ++ natLE 1 t.flags ++ natLE 1 (t.name.length - 1) ++ natLE 2 t.value.length ++ t.name) t.value rest
      (8 + (t.name.length - 1) + 1) (8 + (t.name.length - 1) + 1 + t.value.length) (by simp [natLE_length]; omega) (by simp [natLE_length]; omega)
    simpa [eaRecord] using this
  rw [eaLoop]
  dsimp only
  rw [e0, e4, e5, e6, e8, e9]
  rw [List.length_append] at hle
  rw [if_neg (by rw [List.length_append]; omega), if_neg (by rw [List.length_append]; omega), if_neg (fun hc => hc h2),
    if_neg (fun hc => hc rfl)]
  split <;> rfl

/-- C24: stored extended attributes (any number, any padding) are parsed into exactly the stored
(name, flags, value) tuples, in order. -/
theorem C24_roundtrip (l : List ExtendedAttribute) (b : Bytes) (h : EaStored l b) : eaParsed b = l := by
  unfold eaParsed
  induction h with
  | last h => rw [eaLoop_step 0 _ h (by omega) _ (by omega), if_pos rfl]
  | @lastWithOffset t pad rest h hr hn =>
    have hl : (eaRecord 0 t ++ pad).length = (eaRecord (eaRecord 0 t ++ pad).length t ++ pad).length := by
      simp [eaRecord_length]
    rw [List.append_assoc, eaLoop_step _ _ h hn _ (by simp [eaRecord_length]),
      if_neg (by simp [eaRecord_length]), ← List.append_assoc]
    conv => lhs; arg 2; arg 1; arg 1; rw [hl]
    rw [List.drop_left, eaLoop, if_pos hr]
  | @cons t l pad rest h hn hr ih =>
    have hl : (eaRecord 0 t ++ pad).length = (eaRecord (eaRecord 0 t ++ pad).length t ++ pad).length := by
      simp [eaRecord_length]
    rw [List.append_assoc, eaLoop_step _ _ h hn _ (by simp [eaRecord_length]),
      if_neg (by simp [eaRecord_length]), ← List.append_assoc]
    conv => lhs; arg 2; arg 1; arg 1; rw [hl]
    rw [List.drop_left, ih]

/-- C24 is not vacuous: two stored attributes. -/
example : EaStored [⟨[0x41, 0], 0x80, [1, 2, 3]⟩, ⟨[0x42, 0x43, 0], 0, []⟩]
    (eaRecord 16 ⟨[0x41, 0], 0x80, [1, 2, 3]⟩ ++ zeros 3 ++ (eaRecord 0 ⟨[0x42, 0x43, 0], 0, []⟩ ++ [9, 9])) :=
  .cons (pad := zeros 3) ⟨by decide, by decide, by decide⟩ (by decide) (.last ⟨by decide, by decide, by decide⟩)

theorem natLE_slice (b : Bytes) (i n : Nat) (h : i + n ≤ b.length) : natLE n (leNat (slice b i (i + n))) = slice b i (i + n) := by
  have hl : (slice b i (i + n)).length = n := by rw [slice_length_of_le h]; omega
  have := natLE_leNat (slice b i (i + n))
  rwa [hl] at this

theorem eaRecord_prefix (b : Bytes) (h : 9 + u8 b 5 + u16 b 6 ≤ b.length) :
    eaRecord (u32 b 0) ⟨slice b 8 (8 + u8 b 5 + 1), u8 b 4, slice b (8 + u8 b 5 + 1) (8 + u8 b 5 + 1 + u16 b 6)⟩ =
      b.take (9 + u8 b 5 + u16 b 6) := by
  unfold eaRecord
  dsimp only
  rw [slice_length_of_le (by omega), slice_length_of_le (by omega), show 8 + u8 b 5 + 1 - 8 - 1 = u8 b 5 by omega,
    show 8 + u8 b 5 + 1 + u16 b 6 - (8 + u8 b 5 + 1) = u16 b 6 by omega]
  have a0 : natLE 4 (u32 b 0) = slice b 0 4 := natLE_slice b 0 4 (by omega)
  have a4 : natLE 1 (u8 b 4) = slice b 4 5 := natLE_slice b 4 1 (by omega)
  have a5 : natLE 1 (u8 b 5) = slice b 5 6 := natLE_slice b 5 1 (by omega)
  have a6 : natLE 2 (u16 b 6) = slice b 6 8 := natLE_slice b 6 2 (by omega)
  rw [a0, a4, a5, a6, slice_append_adj _ (by omega) (by omega), slice_append_adj _ (by omega) (by omega),
    slice_append_adj _ (by omega) (by omega), slice_append_adj _ (by omega) (by omega), slice_append_adj _ (by omega) (by omega),
    slice_zero]
  congr 1
  omega

/-- C24: for every byte string, parsing ends, and every tuple is stored in the string: header, name
with its null character, value. -/
theorem C24_sound (b : Bytes) : ∀ t ∈ eaParsed b, t.name.getLast? = some 0 ∧
    ∃ next, next < 2 ^ 32 ∧ eaRecord next t <:+: b := by
  unfold eaParsed
  fun_induction eaLoop b with
  | case1 => simp
  | case2 => simp
  | case3 => simp
  | case4 => simp
  | case5 b h8 nx fl nl vl h1 nm v h2 h3 h4 =>
    intro t ht
    rw [List.mem_singleton] at ht
    subst ht
    refine ⟨Decidable.of_not_not h2, nx, u32_lt b 0, ?_⟩
    rw [eaRecord_prefix b (Nat.le_of_not_lt fun hc => h1 (.inl hc))]
    exact (List.take_prefix _ _).isInfix
  | case6 b h8 nx fl nl vl h1 nm v h2 h3 h4 ih =>
    intro t ht
    rcases List.mem_cons.1 ht with rfl | ht
    · refine ⟨Decidable.of_not_not h2, nx, u32_lt b 0, ?_⟩
      rw [eaRecord_prefix b (Nat.le_of_not_lt fun hc => h1 (.inl hc))]
      exact (List.take_prefix _ _).isInfix
    · obtain ⟨i1, n, i2, i3⟩ := ih t ht
      exact ⟨i1, n, i2, i3.trans (List.drop_suffix _ _).isInfix⟩

end Verif.Props
