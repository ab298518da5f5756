/-
Property C132: iterating over the records of a log file again with the same parser (dfir_ntfs/LogFile.py:1321-1397).
-/
import Verif.Model.LogFile.Object
import Verif.Props.C35_C36
namespace Verif.Props.LogAgain
open Verif Verif.LogFile

/-! ### What the restart areas leave in the parser -/

theorem fold_cluster : ∀ (l : List Bytes), (∀ c : Config, (l.foldl Config.adjust c).clusterSize = c.clusterSize) ∨
    ∃ k, ∀ c : Config, (l.foldl Config.adjust c).clusterSize = k
  | [] => .inl fun _ => rfl
  | a :: l => by
    rcases fold_cluster l with h | ⟨k, h⟩
    · by_cases hv : ∃ n, bytesPerCluster a = some n ∧ n > 0 ∧ n % 512 = 0
      · obtain ⟨n, h1, h2⟩ := hv
        refine .inr ⟨n, fun c => ?_⟩
        rw [List.foldl_cons, h]
        unfold Config.adjust
        dsimp only
        rw [h1]
        dsimp only
        rw [if_pos h2]
      · refine .inl fun c => ?_
        rw [List.foldl_cons, h]
        unfold Config.adjust
        dsimp only
        cases h1 : bytesPerCluster a with
        | none => rfl
        | some n =>
          dsimp only
          rw [if_neg fun h2 => hv ⟨n, h1, h2⟩]
    · exact .inr ⟨k, fun c => by rw [List.foldl_cons, h]⟩

theorem fold_version : ∀ (l : List Bytes) (a : Bytes) (c c' : Config), ((a :: l).foldl Config.adjust c).useDumps = ((a :: l).foldl Config.adjust c').useDumps ∧
    ((a :: l).foldl Config.adjust c).oatVersion = ((a :: l).foldl Config.adjust c').oatVersion
  | [], _, _, _ => ⟨rfl, rfl⟩
  | b :: l, a, c, c' => fold_version l b (c.adjust a) (c'.adjust a)

/-- The restart areas of a file leave the same when they are looked at again. -/
theorem fold_again (l : List Bytes) (c : Config) : l.foldl Config.adjust (l.foldl Config.adjust c) = l.foldl Config.adjust c := by
  cases l with
  | nil => rfl
  | cons a l =>
    obtain ⟨h1, h2⟩ := fold_version l a ((a :: l).foldl Config.adjust c) c
    have h3 : ((a :: l).foldl Config.adjust ((a :: l).foldl Config.adjust c)).clusterSize = ((a :: l).foldl Config.adjust c).clusterSize := by
      rcases fold_cluster (a :: l) with h | ⟨k, h⟩
      · rw [h]
      · rw [h, h]
    generalize (a :: l).foldl Config.adjust ((a :: l).foldl Config.adjust c) = x at *
    generalize (a :: l).foldl Config.adjust c = y at *
    cases x; cases y
    dsimp only at h1 h2 h3
    rw [h1, h2, h3]

theorem areasLoop_config (p : Parser) (file : Bytes) (fuel : Nat) : ∀ (todo : List Nat) (c c0 : Config) (new : List Nat),
    p.areasLoop file fuel todo c new =
      (p.areasLoop file fuel todo c0 new).map fun r => r.map fun x => ((p.areasSeen file fuel todo).foldl Config.adjust c, x.2)
  | [], c, c0, new => rfl
  | lsn :: rest, c, c0, new => by
    unfold Parser.areasLoop Parser.areasSeen
    cases p.getClientData file fuel lsn with
    | none => rfl
    | some r =>
      cases r with
      | error e => rfl
      | ok data =>
        dsimp only
        by_cases h2 : data.recordType = 2
        · rw [if_pos h2, if_pos h2, if_pos h2]
          cases data.decoded with
          | error e =>
            dsimp only
            by_cases he : e = .ClientException
            · rw [if_pos he, if_pos he, if_pos he]
              exact areasLoop_config p file fuel rest c c0 new
            · rw [if_neg he, if_neg he, if_neg he]
              rfl
          | ok d =>
            cases d with
            | restartArea area l =>
              dsimp only
              rw [List.foldl_cons]
              exact areasLoop_config p file fuel rest (c.adjust area) (c0.adjust area) _
            | logRecord b l t => exact areasLoop_config p file fuel rest c c0 new
        · rw [if_neg h2, if_neg h2, if_neg h2]
          exact areasLoop_config p file fuel rest c c0 new

theorem collectLsns_config (p : Parser) (file : Bytes) (order : List Nat → List Nat) (fuel : Nat) (c c0 : Config) :
    p.collectLsns file order fuel c =
      (p.collectLsns file order fuel c0).map fun r => r.map fun x => (p.configLeft file order fuel c, x.2) := by
  unfold Parser.configLeft Parser.collectLsns Parser.beforeAreas
  cases p.firstLsns file with
  | error e => rfl
  | ok first =>
    dsimp only
    cases p.validateLoop file (order (first.foldl setAdd [])) (first.foldl setAdd []) [] with
    | error e => rfl
    | ok ln =>
      obtain ⟨lsns, new⟩ := ln
      dsimp only
      cases p.validateNew file (order new) new with
      | error e => rfl
      | ok new =>
        dsimp only
        unfold Parser.extendLsns
        cases walkAll (p.findNextLsn file) fuel (order (new.foldl setAdd lsns)) (new.foldl setAdd lsns) with
        | none => rfl
        | some r =>
          cases r with
          | error e => rfl
          | ok lsns =>
            dsimp only
            cases walkAll (fun _ => p.findPreviousLsn file) fuel (order lsns) lsns with
            | none => rfl
            | some r =>
              cases r with
              | error e => rfl
              | ok lsns =>
                dsimp only
                cases walkAll (fun _ => p.findUndoNextLsn file) fuel (order lsns) lsns with
                | none => rfl
                | some r =>
                  cases r with
                  | error e => rfl
                  | ok lsns =>
                    dsimp only
                    rw [areasLoop_config p file fuel (order lsns) c c0 []]
                    cases p.areasLoop file fuel (order lsns) c0 [] with
                    | none => rfl
                    | some r =>
                      cases r with
                      | error e => rfl
                      | ok x =>
                        obtain ⟨c1, new⟩ := x
                        dsimp only [Option.map, Except.map]
                        cases p.areaLsnsLoop file fuel (order new) lsns with
                        | none => rfl
                        | some r => cases r <;> rfl

/-- The records depend on what was in the parser before only through what the restart areas leave there. -/
theorem parseCurrent_config (p : Parser) (file : Bytes) (order : List Nat → List Nat) (fuel : Nat) (c c0 : Config)
    (h : p.configLeft file order fuel c = p.configLeft file order fuel c0) :
    p.parseCurrent file order fuel c = p.parseCurrent file order fuel c0 := by
  unfold Parser.parseCurrent
  have : p.collectLsns file order fuel c = p.collectLsns file order fuel c0 := by
    rw [collectLsns_config p file order fuel c c0, h, ← collectLsns_config p file order fuel c0 c0]
  rw [this]

/-! ### Histories -/

/-- The parsers that have been through any number of iterations over the records of `file`, all with the same choice of `recover`.  With
`recover`, the iterations have ended normally (or have not begun); without it, they may have been left, or ended by exceptions, as well. -/
inductive Parsed (p : Parser) (file : Bytes) (order : List Nat → List Nat) (fuel : Nat) (recover : Bool) : Log → Prop
  | fresh : Parsed p file order fuel recover (Log.fresh file)
  | next (o o' : Log) (taken : Option Nat) (r : Gen (Item × Nat)) (ho : Parsed p file order fuel recover o)
      (h : p.iterate o order fuel recover taken = some (r, o'))
      (hr : recover = true → taken = some 0 ∨ taken = none ∧ r.err = none) : Parsed p file order fuel recover o'

/-- The file that is read by an iteration with the original file. -/
def readFile (p : Parser) (file : Bytes) (recover : Bool) : Bytes :=
  if recover then (p.repair ⟨file, none⟩).1.current else file

theorem Parsed.facts {p : Parser} {file : Bytes} {order : List Nat → List Nat} {fuel : Nat} {recover : Bool} {o : Log}
    (h : Parsed p file order fuel recover o) : o.state = ⟨file, none⟩ ∧
      (o.config = (Log.fresh file).config ∨ o.config = p.configLeft (readFile p file recover) order fuel (Log.fresh file).config) := by
  induction h with
  | fresh => exact ⟨rfl, .inl rfl⟩
  | next o o' taken r ho h hr ih =>
    obtain ⟨hs, hc⟩ := ih
    have hleft : p.configLeft (readFile p file recover) order fuel o.config =
        p.configLeft (readFile p file recover) order fuel (Log.fresh file).config := by
      rcases hc with hc | hc
      · rw [hc]
      · rw [hc]; exact fold_again _ _
    unfold Parser.iterate at h
    by_cases h0 : taken = some 0
    · rw [if_pos h0] at h
      cases h
      exact ⟨hs, hc⟩
    · rw [if_neg h0, hs] at h
      cases recover with
      | false =>
        rw [if_neg (by decide)] at h
        dsimp only at h
        have hf : State.current ⟨file, none⟩ = readFile p file false := rfl
        rw [hf] at h
        cases hp : p.parseCurrent (readFile p file false) order fuel o.config with
        | none => rw [hp] at h; cases h
        | some g =>
          rw [hp] at h
          dsimp only at h
          rw [hleft] at h
          split at h
          · cases h
            exact ⟨rfl, .inr rfl⟩
          · rw [if_neg (by rintro ⟨h, -⟩; cases h)] at h
            cases h
            exact ⟨rfl, .inr rfl⟩
      | true =>
        rw [if_pos rfl] at h
        obtain ⟨htaken, hend⟩ := (hr rfl).resolve_left h0
        subst htaken
        have hf : (p.repair ⟨file, none⟩).1.current = readFile p file true := rfl
        have ho := (repair_overlay p ⟨file, none⟩)
        cases hrep : p.repair ⟨file, none⟩ with
        | mk s e =>
          rw [hrep] at h ho hf
          dsimp only at h hf ho
          cases e with
          | some e => cases h; cases hend
          | none =>
            dsimp only at h
            rw [hf] at h
            cases hp : p.parseCurrent (readFile p file true) order fuel o.config with
            | none => rw [hp] at h; cases h
            | some g =>
              rw [hp] at h
              dsimp only at h
              rw [hleft, if_neg (by rintro ⟨⟩)] at h
              obtain ⟨hg, ho'⟩ := Prod.mk.inj (Option.some.inj h)
              subst hg
              have hr' : g.err = none := hend
              rw [if_pos ⟨rfl, hr'⟩] at ho'
              subst ho'
              refine ⟨?_, .inr rfl⟩
              obtain ⟨d1, d2⟩ := discard_facts s
              cases hd : s.discard with
              | mk a b =>
                rw [hd] at d1 d2
                dsimp only at d1 d2
                rw [d1, d2, ho]

/-- C132, as far as it holds: an iteration over the records of a log file gives the same with a parser that has been through any number of
iterations as with a new parser: the same items, decoded with the same cluster size, and the same exception at the end, wherever it is
left.  All iterations are with the same choice of `recover_log_data`; if that is true, the earlier ones have ended normally.  What is
missing are mixed choices, and iterations that have been left when log data is recovered: `C132_mixed` and `C132_left` show that the statement is
false of the code for them. -/
theorem C132_again_partial (p : Parser) (file : Bytes) (order : List Nat → List Nat) (fuel : Nat) (recover : Bool) (o : Log)
    (h : Parsed p file order fuel recover o) (taken : Option Nat) :
    (p.iterate o order fuel recover taken).map (·.1) = (p.iterate (Log.fresh file) order fuel recover taken).map (·.1) := by
  obtain ⟨hs, hc⟩ := h.facts
  have hleft : p.configLeft (readFile p file recover) order fuel o.config =
      p.configLeft (readFile p file recover) order fuel (Log.fresh file).config := by
    rcases hc with hc | hc
    · rw [hc]
    · rw [hc]; exact fold_again _ _
  have hp := parseCurrent_config p _ order fuel _ _ hleft
  unfold Parser.iterate
  by_cases h0 : taken = some 0
  · rw [if_pos h0, if_pos h0]
    rfl
  · rw [if_neg h0, if_neg h0, hs]
    rw [show (Log.fresh file).state = ⟨file, none⟩ from rfl]
    have hf : (if recover = true then p.repair ⟨file, none⟩ else (⟨file, none⟩, none)).1.current = readFile p file recover := by
      cases recover <;> rfl
    cases hrep : (if recover = true then p.repair ⟨file, none⟩ else (⟨file, none⟩, none)) with
    | mk s e =>
      rw [hrep] at hf
      dsimp only at hf
      cases e with
      | some e => rfl
      | none =>
        dsimp only
        rw [hf, hp, hleft]

/-- C132, about leaving: an iteration that is left after `n` items has given the first `n` items of the complete iteration, and no exception;
one that asks for more items than there are is the complete iteration, with its exception, and leaves the same parser. -/
theorem C132_left_items (p : Parser) (o o' : Log) (order : List Nat → List Nat) (fuel : Nat) (recover : Bool) (r : Gen (Item × Nat))
    (h : p.iterate o order fuel recover none = some (r, o')) (n : Nat) :
    (n ≤ r.items.length → ∃ left, p.iterate o order fuel recover (some n) = some (⟨r.items.take n, none⟩, left)) ∧
    (r.items.length < n → p.iterate o order fuel recover (some n) = some (r, o')) := by
  unfold Parser.iterate at h ⊢
  rw [if_neg (by simp)] at h
  by_cases h0 : n = 0
  · subst h0
    refine ⟨fun _ => ⟨o, ?_⟩, fun hn => absurd hn (Nat.not_lt_zero _)⟩
    rw [if_pos rfl]
    rfl
  · rw [if_neg (by simpa using h0)]
    cases hrep : (if recover = true then p.repair o.state else (o.state, none)) with
    | mk s e =>
      rw [hrep] at h
      cases e with
      | some e =>
        obtain ⟨h1, h2⟩ := Prod.mk.inj (Option.some.inj h)
        subst h1 h2
        exact ⟨fun hn => absurd (Nat.le_zero.mp hn) h0, fun _ => rfl⟩
      | none =>
        dsimp only at h ⊢
        cases hg : p.parseCurrent s.current order fuel o.config with
        | none => rw [hg] at h; cases h
        | some g =>
          rw [hg] at h
          dsimp only at h ⊢
          rw [if_neg (by simp)] at h
          obtain ⟨h1, h2⟩ := Prod.mk.inj (Option.some.inj h)
          subst h1 h2
          dsimp only
          rw [List.length_map]
          refine ⟨fun hn => ⟨⟨s, p.configLeft s.current order fuel o.config⟩, ?_⟩, fun hn => ?_⟩
          · rw [if_pos (by simpa using hn)]
            rfl
          · rw [if_neg (by simpa using hn)]

end Verif.Props.LogAgain
