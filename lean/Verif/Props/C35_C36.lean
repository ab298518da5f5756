/-
Properties C35, C36 and C76: repairs of the log file.
-/
import Verif.Model.LogFile.Replay
import Verif.Props.C34
namespace Verif.Props
open Verif.LogFile Verif.Spec.Log

/-! ### C35: the original file -/

/-- The byte at a position after a write. -/
theorem writeAt_getElem? (b d : Bytes) (off i : Nat) : (writeAt b off d)[i]? =
    if i < off then (if i < b.length then b[i]? else some 0)
    else if i < off + d.length then d[i - off]? else b[i]? := by
  unfold writeAt zeros
  by_cases h1 : i < off
  · rw [if_pos h1]
    by_cases h2 : i < b.length
    · rw [if_pos h2, List.getElem?_append_left (by rw [List.length_take]; omega), List.getElem?_take_of_lt h1]
    · rw [if_neg h2, List.getElem?_append_right (by rw [List.length_take]; omega), List.length_take,
        List.getElem?_append_left (by rw [List.length_replicate]; omega), List.getElem?_replicate, if_pos (by omega)]
  · rw [if_neg h1, List.getElem?_append_right (by rw [List.length_take]; omega), List.length_take,
      List.getElem?_append_right (by rw [List.length_replicate]; omega), List.length_replicate,
      show i - min off b.length - (off - b.length) = i - off by omega]
    by_cases h2 : i < off + d.length
    · rw [if_pos h2, List.getElem?_append_left (by omega)]
    · rw [if_neg h2, List.getElem?_append_right (by omega), List.getElem?_drop]
      congr 1; omega

/-- Writing to the file in memory. -/
theorem write_overlay {s s' : State} {b d : Bytes} {off : Int} (hb : s.overlay = some b) (h : s.write off d = .ok s') :
    0 ≤ off ∧ s'.original = s.original ∧ s'.overlay = some (writeAt b off.toNat d) := by
  unfold State.write at h
  obtain ⟨h1, h⟩ := of_ite_error h
  obtain ⟨-, h⟩ := of_ite_error h
  rw [hb] at h
  cases h
  exact ⟨by omega, rfl, rfl⟩

theorem applyTailPage_overlay {p : Parser} {s s' : State} (hs : s.overlay ≠ none) (h : p.applyTailPage s = .ok s') :
    s'.original = s.original := by
  unfold Parser.applyTailPage at h
  obtain ⟨-, h⟩ := of_ite_error h
  split at h
  · cases h
  split at h
  · cases h
  split at h
  · cases h; rfl
  · obtain ⟨b, hb⟩ := Option.ne_none_iff_exists'.mp hs
    exact (write_overlay hb h).2.1

theorem applyPages_overlay : ∀ (l : List LogRecordPage) (s : State), s.overlay ≠ none →
    (applyPages l s).1.original = s.original
  | [], _, _ => rfl
  | page :: rest, s, hs => by
    unfold applyPages
    split
    · rfl
    · split
      · rfl
      · rename_i off _ s' h
        obtain ⟨b, hb⟩ := Option.ne_none_iff_exists'.mp hs
        obtain ⟨-, h2, h3⟩ := write_overlay hb h
        rw [applyPages_overlay rest s' (by rw [h3]; exact fun h => nomatch h), h2]

theorem applyFastPages_overlay (p : Parser) (s : State) (hs : s.overlay ≠ none) :
    (p.applyFastPages s).1.original = s.original := by
  unfold Parser.applyFastPages
  split
  · rfl
  · split
    · rfl
    · split
      · rfl
      · exact applyPages_overlay _ _ hs

theorem prepare_facts (s : State) : s.prepare.original = s.original ∧ s.prepare.overlay ≠ none ∧ s.prepare.current = s.current := by
  unfold State.prepare State.current
  cases h : s.overlay with
  | none => exact ⟨rfl, (fun h => nomatch h), rfl⟩
  | some b => exact ⟨rfl, (by dsimp only; rw [h]; exact (fun h => nomatch h)), (by dsimp only; rw [h])⟩

theorem repair_overlay (p : Parser) (s : State) : (p.repair s).1.original = s.original := by
  obtain ⟨h1, h2, -⟩ := prepare_facts s
  unfold Parser.repair
  dsimp only
  split
  · split
    · rename_i h
      exact (applyTailPage_overlay h2 h).trans h1
    · exact h1
  · split
    · exact (applyFastPages_overlay p _ h2).trans h1
    · exact h1

/-- What a caller can do with a parser that may write: the calls of `prepare_for_writes`,
`discard_changes`, `apply_tail_page` and `apply_fast_pages`, and the iteration over
`parse_ntfs_records`, to its end or only to some point.  (The other methods only read.) -/
inductive Call where
  | prepare
  | discard
  | applyTail
  | applyFast
  | parse (order : List Nat → List Nat) (fuel : Nat) (config : Config) (recover : Bool)
  | parsePartly (recover : Bool)

/-- The state after a call; an exception is caught by the caller.  (`none`: an iteration that is still going on
after `fuel` steps.) -/
def Call.run (p : Parser) (s : State) : Call → Option State
  | .prepare => some s.prepare
  | .discard => some s.discard
  | .applyTail => match p.applyTailPage s with | .ok s' => some s' | .error _ => some s
  | .applyFast => some (p.applyFastPages s).1
  | .parse order fuel config recover => (p.parseRecords s order fuel config recover).map (·.2)
  | .parsePartly recover => some (if recover then (p.repair s).1 else s)

/-- The histories of calls where the two documented as requiring a writable file object
(`apply_tail_page` and `apply_fast_pages`) are called only when there is one. -/
inductive History (p : Parser) : State → State → Prop
  | start (s : State) : History p s s
  | call (s t u : State) (c : Call) (h : History p s t) (hc : c.run p t = some u)
      (hw : c = .applyTail ∨ c = .applyFast → t.overlay ≠ none) : History p s u

theorem discard_facts (s : State) : s.discard.original = s.original ∧ s.discard.overlay = none := by
  unfold State.discard
  cases h : s.overlay with
  | none => exact ⟨rfl, h⟩
  | some b => exact ⟨rfl, rfl⟩

theorem run_original {p : Parser} {t u : State} {c : Call} (hc : c.run p t = some u)
    (hw : c = .applyTail ∨ c = .applyFast → t.overlay ≠ none) : u.original = t.original := by
  cases c with
  | prepare => cases hc; exact (prepare_facts t).1
  | discard => cases hc; exact (discard_facts t).1
  | applyTail =>
    unfold Call.run at hc
    dsimp only at hc
    split at hc
    · rename_i h; cases hc; exact applyTailPage_overlay (hw (.inl rfl)) h
    · cases hc; rfl
  | applyFast => cases hc; exact applyFastPages_overlay p t (hw (.inr rfl))
  | parse order fuel config recover =>
    unfold Call.run at hc
    dsimp only at hc
    obtain ⟨⟨g, s'⟩, h, rfl⟩ := Option.map_eq_some_iff.mp hc
    dsimp only
    unfold Parser.parseRecords at h
    split at h
    · have hr := repair_overlay p t
      split at h
      · rename_i s e he
        cases h
        rw [he] at hr; exact hr
      · rename_i s he
        rw [he] at hr
        split at h
        · cases h
        · cases h
          split
          · exact (discard_facts _).1.trans hr
          · exact hr
    · split at h
      · cases h
      · cases h; rfl
  | parsePartly recover =>
    cases hc
    split
    · exact repair_overlay p t
    · rfl

/-- C35: whatever is called, in any order, the original file is unchanged, and after the changes are
discarded its bytes are what is read. -/
theorem C35_original_unchanged (p : Parser) (s t : State) (h : History p s t) :
    t.original = s.original ∧ t.discard.current = s.original ∧ (t.overlay = none → t.current = s.original) := by
  have ho : t.original = s.original := by
    induction h with
    | start => rfl
    | call t u c _ hc hw ih => exact (run_original hc hw).trans ih
  refine ⟨ho, ?_, fun h => ?_⟩
  · unfold State.current
    rw [(discard_facts t).2, (discard_facts t).1]
    exact ho
  · unfold State.current
    rw [h]; exact ho

/-- C35: reads see the bytes written to the file in memory, and elsewhere what was read before. -/
theorem C35_reads_overlay (s s' : State) (off : Int) (d : Bytes) (hs : s.overlay ≠ none) (h : s.write off d = .ok s') (i : Nat) :
    s'.original = s.original ∧
    (off ≤ i → i < off + d.length → s'.current[i]? = d[i - off.toNat]?) ∧
    (i < off ∨ off + d.length ≤ i → i < s.current.length → s'.current[i]? = s.current[i]?) := by
  obtain ⟨b, hb⟩ := Option.ne_none_iff_exists'.mp hs
  obtain ⟨h1, h2, h3⟩ := write_overlay hb h
  unfold State.current
  rw [h3, hb]
  dsimp only [Option.getD_some]
  rw [writeAt_getElem?]
  refine ⟨h2, fun a1 a2 => ?_, fun a1 a2 => ?_⟩
  · rw [if_neg (by omega), if_pos (by omega)]
  · by_cases h : i < off.toNat
    · rw [if_pos h, if_pos a2]
    · rw [if_neg h, if_neg (by omega)]

/-- C35: making the file object writable does not change what is read. -/
theorem C35_prepare (s : State) : s.prepare.overlay ≠ none ∧ s.prepare.current = s.current := (prepare_facts s).2

/-- C35: iterating over the records to the end leaves a parser that was not writable as it was. -/
theorem C35_parse_restores (p : Parser) (s s' : State) (order : List Nat → List Nat) (fuel : Nat) (config : Config) (recover : Bool)
    (g : Gen Item) (hs : s.overlay = none) (h : p.parseRecords s order fuel config recover = some (g, s')) (hg : g.err = none) :
    s' = s := by
  unfold Parser.parseRecords at h
  split at h
  · have hr := repair_overlay p s
    split at h
    · cases h; exact absurd hg (fun h => nomatch h)
    · rename_i t he
      rw [he] at hr
      split at h
      · cases h
      · cases h
        rw [if_pos hg]
        have a := discard_facts t
        cases hd : t.discard with
        | mk o v =>
          cases s with
          | mk o' v' =>
            rw [hd] at a
            dsimp only at a hr hs ⊢
            rw [a.1, a.2, hr, hs]
  · split at h
    · cases h
    · cases h; rfl

/-! ### C36: the tail page -/

/-- The last end LSN of a page, and the file offset recorded by a copy of the tail page (a signed number). -/
def lastEndLsnOf (buf : Bytes) : Nat := leNat (slice buf 32 40)
def copyOffsetOf (buf : Bytes) : Int := leInt (slice buf 8 16)

theorem getPage_cases {p : Parser} (hs : p.logPageSize = 4096) (file : Bytes) {n : Nat} (hn : n * 4096 < 2 ^ 63) :
    (p.getPage file n = .ok none ∧ ∀ buf, ¬ LogPage p file n buf) ∨
    ∃ page, p.getPage file n = .ok (some page) ∧ LogPage p file n page.buf ∧ (∀ buf, LogPage p file n buf → buf = page.buf) ∧
      page.bufProtected = slice file (n * 4096) ((n + 1) * 4096) := by
  obtain ⟨r, hr⟩ := getPage_total hs file hn
  cases r with
  | none =>
    refine .inl ⟨hr, fun buf hb => ?_⟩
    obtain ⟨page, h, -⟩ := (getPage_iff hs file hn buf).mpr hb
    rw [hr] at h; cases h
  | some page =>
    refine .inr ⟨page, hr, (getPage_iff hs file hn _).mp ⟨page, hr, rfl⟩, fun buf hb => ?_, ?_⟩
    · obtain ⟨page', h, rfl⟩ := (getPage_iff hs file hn buf).mpr hb
      rw [hr] at h; cases h; rfl
    · rw [show (n + 1) * 4096 = n * 4096 + 4096 by omega]
      exact (getPage_some hs hr).2.2.2.2.2.2.2.1

/-- C36: of the two copies of the tail page (the pages 2 and 3), the valid one with the later last end
LSN is written to the place it records; with the same LSN in both, the second one. -/
theorem C36_latest_copy (file0 : Bytes) (p : Parser) (hp : Parser.init file0 = .ok p) (hv : p.logVersion = (1, 1)) (s : State)
    (n : Nat) (buf : Bytes) (hn : n = 2 ∨ n = 3) (hpage : LogPage p s.current n buf)
    (hlater : ∀ m other, m = 2 ∨ m = 3 → LogPage p s.current m other →
      lastEndLsnOf other < lastEndLsnOf buf ∨ (lastEndLsnOf other = lastEndLsnOf buf ∧ m ≤ n)) :
    p.applyTailPage s = s.write (copyOffsetOf buf) (slice s.current (n * 4096) ((n + 1) * 4096)) := by
  have hs := (init_facts hp).2.2.1
  unfold Parser.applyTailPage
  rw [if_neg (by simp [hv])]
  rcases getPage_cases hs s.current (n := 2) (by omega) with ⟨h2, e2⟩ | ⟨page2, h2, l2, u2, b2⟩ <;>
  rcases getPage_cases hs s.current (n := 3) (by omega) with ⟨h3, e3⟩ | ⟨page3, h3, l3, u3, b3⟩ <;>
  rw [h2, h3] <;> dsimp only <;> unfold chooseTailPage <;> dsimp only
  · rcases hn with rfl | rfl
    · exact absurd hpage (e2 _)
    · exact absurd hpage (e3 _)
  · rcases hn with rfl | rfl
    · exact absurd hpage (e2 _)
    · rw [u3 _ hpage, b3]; rfl
  · rcases hn with rfl | rfl
    · rw [u2 _ hpage, b2]; rfl
    · exact absurd hpage (e3 _)
  · rcases hn with rfl | rfl
    · have := hlater 3 _ (.inr rfl) l3
      rw [u2 _ hpage] at this
      rw [if_pos (show page2.lastEndLsn > page3.lastEndLsn by
        change lastEndLsnOf page3.buf < lastEndLsnOf page2.buf
        omega)]
      rw [u2 _ hpage]
      dsimp only
      rw [b2]; rfl
    · have := hlater 2 _ (.inl rfl) l2
      rw [u3 _ hpage] at this
      rw [if_neg (show ¬ page2.lastEndLsn > page3.lastEndLsn by
        change ¬ lastEndLsnOf page3.buf < lastEndLsnOf page2.buf
        omega)]
      rw [u3 _ hpage]
      dsimp only
      rw [b3]; rfl

/-- C36: without a valid copy nothing is written. -/
theorem C36_no_copy (file0 : Bytes) (p : Parser) (hp : Parser.init file0 = .ok p) (hv : p.logVersion = (1, 1)) (s : State)
    (h : ∀ n buf, n = 2 ∨ n = 3 → ¬ LogPage p s.current n buf) : p.applyTailPage s = .ok s := by
  have hs := (init_facts hp).2.2.1
  unfold Parser.applyTailPage
  rw [if_neg (by simp [hv])]
  rcases getPage_cases hs s.current (n := 2) (by omega) with ⟨h2, e2⟩ | ⟨page2, h2, l2, u2, b2⟩
  · rcases getPage_cases hs s.current (n := 3) (by omega) with ⟨h3, e3⟩ | ⟨page3, h3, l3, u3, b3⟩
    · rw [h2, h3]; rfl
    · exact absurd l3 (h 3 _ (.inr rfl))
  · exact absurd l2 (h 2 _ (.inl rfl))

/-- C36: whenever a copy is valid one of the two theorems above applies (one of the copies is the latest). -/
theorem C36_exhaustive (p : Parser) (file : Bytes) :
    (∀ n buf, n = 2 ∨ n = 3 → ¬ LogPage p file n buf) ∨
    ∃ n buf, (n = 2 ∨ n = 3) ∧ LogPage p file n buf ∧ ∀ m other, m = 2 ∨ m = 3 → LogPage p file m other →
      lastEndLsnOf other < lastEndLsnOf buf ∨ (lastEndLsnOf other = lastEndLsnOf buf ∧ m ≤ n) := by
  have huniq : ∀ {n a b}, LogPage p file n a → LogPage p file n b → a = b := by
    rintro n a b ⟨-, -, -, e, h, -⟩ ⟨-, -, -, e', h', -⟩
    rw [h] at h'; cases h'; rfl
  by_cases h2 : ∃ buf, LogPage p file 2 buf <;> by_cases h3 : ∃ buf, LogPage p file 3 buf
  · obtain ⟨a, ha⟩ := h2
    obtain ⟨b, hb⟩ := h3
    by_cases hle : lastEndLsnOf a ≤ lastEndLsnOf b
    · refine .inr ⟨3, b, .inr rfl, hb, ?_⟩
      rintro m other (rfl | rfl) ho
      · rw [huniq ho ha]; omega
      · rw [huniq ho hb]; omega
    · refine .inr ⟨2, a, .inl rfl, ha, ?_⟩
      rintro m other (rfl | rfl) ho
      · rw [huniq ho ha]; omega
      · rw [huniq ho hb]; omega
  · obtain ⟨a, ha⟩ := h2
    refine .inr ⟨2, a, .inl rfl, ha, ?_⟩
    rintro m other (rfl | rfl) ho
    · rw [huniq ho ha]; omega
    · exact absurd ⟨_, ho⟩ h3
  · obtain ⟨a, ha⟩ := h3
    refine .inr ⟨3, a, .inr rfl, ha, ?_⟩
    rintro m other (rfl | rfl) ho
    · exact absurd ⟨_, ho⟩ h2
    · rw [huniq ho ha]; omega
  · refine .inl ?_
    rintro n buf (rfl | rfl) h
    · exact h2 ⟨_, h⟩
    · exact h3 ⟨_, h⟩

end Verif.Props
