/-
A concrete file table for C133, and what another first pass does to it.
-/
import Verif.Props.C133
import Verif.Props.C16_C20_Concrete
namespace Verif.Props
open Verif.MFT Verif.Spec.Parser

/-- The sample table with one pass, and with two. -/
def sampleOnce : Table := ⟨⟨sampleTable 3, 1024, [(0x2000000000006, [8])]⟩, some (9, 1), true⟩
def sampleTwice : Table := ⟨⟨sampleTable 3, 1024, [(0x2000000000006, [8, 8])]⟩, some (9, 1), true⟩

/-- The hypotheses of C133_later and C133_before are met by the sample table. -/
theorem sampleTable_before : Table.init (sampleTable 3) false = .ok ⟨⟨sampleTable 3, 1024, []⟩, none, false⟩ := by
  have key : (match Parser.init (sampleTable 3) false with
      | .ok p => decide (p.size = 1024)
      | .error _ => false) = true := by decide +kernel
  unfold Table.init
  cases hp : Parser.init (sampleTable 3) false with
  | error e => rw [hp] at key; cases key
  | ok p =>
    rw [hp] at key
    obtain ⟨h1, -, h3, -⟩ := Parser.init_false hp
    have hsize : p.size = 1024 := of_decide_eq_true key
    have : p = ⟨sampleTable 3, 1024, []⟩ := by rw [← h1, ← h3, ← hsize]
    rw [this]
    rfl

/-- The hypothesis of C133_passes_partial is met by the sample table. -/
theorem sampleTable_once : Table.init (sampleTable 3) true = .ok sampleOnce := by
  obtain ⟨u, -, h2, h3, h4, h5⟩ := C133_later _ _ sampleTable_before
  rw [h2]
  rw [sampleTable_parser] at h3
  have hp := Except.ok.inj h3
  have hs : u.statistics = some (9, 1) := by
    rw [h5]
    decide +kernel
  cases u
  dsimp only at hp h4 hs
  rw [← hp, h4, hs]
  rfl

/-- C133: another pass changes the table: the record that had the file names `f` and `g` has `g` twice, and so has its list of paths. -/
theorem C133_doubled : ∃ (file : Bytes) (t u : Table) (r r' : FileRecord), Table.init file true = .ok t ∧ t.executeFirstPass = .ok u ∧
    t.parser.getRecord 6 none = .ok r ∧ u.parser.getRecord 6 none = .ok r' ∧ r'.base = r.base ∧
    (fileNames r.attributes.items).map nameOf = [Str.ofString "f", Str.ofString "g"] ∧
    (fileNames r'.attributes.items).map nameOf = [Str.ofString "f", Str.ofString "g", Str.ofString "g"] ∧
    (match t.parser.buildFullPaths r with | some (.ok l) => l.map (·.1) | _ => []) = [Str.ofString "/g", Str.ofString "/d/f"] ∧
    (match u.parser.buildFullPaths r' with | some (.ok l) => l.map (·.1) | _ => []) =
      [Str.ofString "/g", Str.ofString "/g", Str.ofString "/d/f"] := by
  have k1 : (match (Parser.mk (sampleTable 3) 1024 [(0x2000000000006, [8])]).getRecord 6 none with
      | .ok r => decide ((fileNames r.attributes.items).map nameOf = [Str.ofString "f", Str.ofString "g"] ∧
          (match (Parser.mk (sampleTable 3) 1024 [(0x2000000000006, [8])]).buildFullPaths r with | some (.ok l) => l.map (·.1) | _ => []) =
            [Str.ofString "/g", Str.ofString "/d/f"])
      | .error _ => false) = true := by decide +kernel
  have k2 : (match (Parser.mk (sampleTable 3) 1024 [(0x2000000000006, [8, 8])]).getRecord 6 none with
      | .ok r => decide ((fileNames r.attributes.items).map nameOf = [Str.ofString "f", Str.ofString "g", Str.ofString "g"] ∧
          (match (Parser.mk (sampleTable 3) 1024 [(0x2000000000006, [8, 8])]).buildFullPaths r with | some (.ok l) => l.map (·.1) | _ => []) =
            [Str.ofString "/g", Str.ofString "/g", Str.ofString "/d/f"])
      | .error _ => false) = true := by decide +kernel
  obtain ⟨-, hl⟩ := Parser.init_loaded sampleTable_parser
  have hu : sampleOnce.executeFirstPass = .ok sampleTwice := by
    have h := (executeFirstPasses_eq _ _ sampleTable_once 1).1
    unfold Table.executeFirstPasses at h
    cases hx : sampleOnce.executeFirstPass with
    | error e => rw [hx] at h; cases h
    | ok u =>
      rw [hx] at h
      exact h
  split at k1
  · next r hr =>
    split at k2
    · next r' hr' =>
      have k1 := of_decide_eq_true k1
      have k2 := of_decide_eq_true k2
      have hrep := getRecord_withCopies hl 1 6 none
      rw [hr] at hrep
      have hc2 : withCopies ⟨sampleTable 3, 1024, [(0x2000000000006, [8])]⟩ (1 + 1) = ⟨sampleTable 3, 1024, [(0x2000000000006, [8, 8])]⟩ := rfl
      rw [hc2, hr'] at hrep
      have hrep := Except.ok.inj hrep
      exact ⟨sampleTable 3, sampleOnce, sampleTwice, r, r', sampleTable_once, hu, hr, hr', by rw [hrep]; rfl, k1.1, k2.1, k1.2, k2.2⟩
    · cases k2
  · cases k1

end Verif.Props
