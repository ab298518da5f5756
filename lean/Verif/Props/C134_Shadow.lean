/-
Property C134, the part about parsers of shadow copies that share their file objects (dfir_ntfs/ShadowCopy.py:730-1253, 1720-1797).
-/
import Verif.Model.ShadowCopy.Shared
namespace Verif.Props.SharedShadow
open Verif Verif.ShadowCopy
open Verif.MFT (sharedSeekRead fileSeek fileRead)

theorem sharedSeekRead_data (b : Bytes) (position offset n : Nat) : (sharedSeekRead b position offset n).1 = seekRead b offset n := by
  unfold sharedSeekRead fileSeek seekRead
  rw [if_neg (by omega)]
  by_cases h : offset ≥ 2 ^ 63
  · rw [if_pos (by omega), if_pos (.inl h)]
  · rw [if_neg (by omega)]
    dsimp only
    unfold fileRead
    by_cases hn : n ≥ 2 ^ 63
    · rw [if_pos hn, if_pos (.inr hn)]
    · rw [if_neg hn, if_neg (by omega)]
      rfl

theorem sharedSource_data (img : Image) (v s : Nat) (x : Source) : (sharedSource img v s x).1 = readSource img x := by
  cases x with
  | zero => rfl
  | volume o => exact sharedSeekRead_data ..
  | store o =>
    unfold sharedSource readSource Image.store
    cases img.storage with
    | none => exact sharedSeekRead_data ..
    | some st => exact sharedSeekRead_data ..

theorem sharedSources_data (img : Image) (l : List Source) (v s : Nat) : (sharedSources img l v s).1 = readSources img l := by
  induction l generalizing v s with
  | nil => rfl
  | cons x l ih =>
    unfold sharedSources readSources
    rw [← sharedSource_data img v s x]
    rcases sharedSource img v s x with ⟨⟨e⟩ | ⟨d⟩, v', s'⟩
    · rfl
    · dsimp only
      split
      · rfl
      · rw [← ih v' s']
        rcases sharedSources img l v' s' with ⟨⟨e⟩ | ⟨ds⟩, v'', s''⟩ <;> rfl

theorem sharedFillSource_data (img : Image) (offset i v s : Nat) (x : Source) :
    (sharedFillSource img offset i v s x).1 = fillSource img offset i x := by
  cases x with
  | zero => rfl
  | volume o =>
    unfold sharedFillSource fillSource
    dsimp only
    split
    · rfl
    · exact sharedSource_data ..
  | store o =>
    unfold sharedFillSource fillSource
    dsimp only
    split
    · rfl
    · exact sharedSource_data ..

theorem sharedFillSources_data (img : Image) (offset : Nat) (l : List Source) (i v s : Nat) :
    (sharedFillSources img offset i l v s).1 = fillSources img offset i l := by
  induction l generalizing i v s with
  | nil => rfl
  | cons x l ih =>
    unfold sharedFillSources fillSources
    rw [← sharedFillSource_data img offset i v s x]
    rcases sharedFillSource img offset i v s x with ⟨⟨e⟩ | ⟨d⟩, v', s'⟩
    · rfl
    · dsimp only
      split
      · rfl
      · rw [← ih (i + 1) v' s']
        rcases sharedFillSources img offset (i + 1) l v' s' with ⟨⟨e⟩ | ⟨ds⟩, v'', s''⟩ <;> rfl

theorem sharedBlock_data (img : Image) (p : Parser) (fill : Bool) (offset v s : Nat) :
    (p.sharedBlock img fill offset v s).1 = p.block img fill offset := by
  unfold Parser.sharedBlock Parser.block
  cases translateLevels img.volumeSize (p.level :: p.next) offset false false with
  | error e => rfl
  | ok sources =>
    dsimp only
    split
    · exact sharedFillSources_data ..
    · exact sharedSources_data ..

theorem sharedReadLoop_data (img : Image) (p : Parser) (fill : Bool) (size position left : Nat) (data : Bytes) (v s : Nat) :
    ((p.sharedReadLoop img fill size position left data v s).1, (p.sharedReadLoop img fill size position left data v s).2.1) =
      readLoopBy (p.block img fill) size position left data := by
  unfold Parser.sharedReadLoop readLoopBy
  by_cases h0 : left = 0
  · rw [if_pos h0, if_pos h0]
  rw [if_neg h0, if_neg h0]
  by_cases h1 : position ≥ size
  · rw [if_pos h1, if_pos h1]
  rw [if_neg h1, if_neg h1, ← sharedBlock_data img p fill (position / 0x4000 * 0x4000) v s]
  rcases p.sharedBlock img fill (position / 0x4000 * 0x4000) v s with ⟨⟨e⟩ | ⟨d⟩, v', s'⟩
  · rfl
  · dsimp only
    by_cases hn : (slice d (position % 0x4000) (position % 0x4000 + left)).length = 0x4000
    · rw [dif_pos hn, dif_pos hn]
      exact sharedReadLoop_data img p fill size _ _ _ v' s'
    · rw [dif_neg hn, dif_neg hn]
termination_by left
decreasing_by omega

theorem sharedRead_data (img : Image) (p : Parser) (fill : Bool) (size : Option Int) (v s : Nat) :
    ((p.sharedRead img fill size v s).1, (p.sharedRead img fill size v s).2.1) = p.read img fill size := by
  unfold Parser.sharedRead Parser.read
  by_cases h0 : fill = true ∧ img.storage.isSome
  · rw [if_pos h0, if_pos h0]
  rw [if_neg h0, if_neg h0]
  by_cases h1 : p.level.selected = true
  · rw [if_pos h1, if_pos h1]
    dsimp only
    generalize readSize (virtualSize img p.level.store) p.offset size = size
    by_cases h2 : size ≤ 0 ∨ p.offset ≥ virtualSize img p.level.store
    · rw [if_pos h2, if_pos h2]
    · rw [if_neg h2, if_neg h2, ← sharedBlock_data img p fill (p.offset / 0x4000 * 0x4000) v s]
      rcases p.sharedBlock img fill (p.offset / 0x4000 * 0x4000) v s with ⟨⟨e⟩ | ⟨d⟩, v', s'⟩
      · rfl
      · dsimp only
        rw [← sharedReadLoop_data img p fill _ _ _ _ v' s']
  · rw [if_neg h1, if_neg h1]

/-- The calls of the parser number `i` among the steps of a program. -/
def callsOf (i : Nat) (steps : List Step) : List Call :=
  steps.filterMap fun x =>
    match x with
    | .select j key _ _ => if j = i then some (.select key) else none
    | .seek j offset whence => if j = i then some (.seek offset whence) else none
    | .tell j => if j = i then some .tell else none
    | .read j size fill => if j = i then some (.read size fill) else none
    | .moved _ _ => none

/-- The answers that the parser number `i` gave. -/
def answersOf (i : Nat) (answers : List (Nat × Answer)) : List Answer :=
  answers.filterMap fun a => if a.1 = i then some a.2 else none

/-- A step is a call of one parser, whose answer does not depend on the positions. -/
theorem step_data (img : Image) (o : Opened) (fuel : Nat) (parsers : Nat → Parser) (v s : Nat) (x : Step) :
    match x with
    | .moved v' s' => step img o fuel parsers v s x = some (none, v', s')
    | _ => ∃ j c, (∀ i, callsOf i [x] = if j = i then [c] else []) ∧
        match step img o fuel parsers v s x with
        | none => call img o fuel (parsers j) c = none
        | some (none, _, _) => False
        | some (some (k, a, p), _, _) => k = j ∧ call img o fuel (parsers j) c = some (a, p) := by
  cases x with
  | moved v' s' => rfl
  | select j key v' s' =>
    refine ⟨j, .select key, fun i => ?_, ?_⟩
    · unfold callsOf; by_cases h : j = i <;> simp [h]
    · unfold step
      dsimp only
      cases call img o fuel (parsers j) (.select key) with
      | none => rfl
      | some r => exact ⟨rfl, rfl⟩
  | seek j offset whence =>
    refine ⟨j, .seek offset whence, fun i => ?_, ?_⟩
    · unfold callsOf; by_cases h : j = i <;> simp [h]
    · unfold step call
      dsimp only
      rcases (parsers j).seek img offset whence with ⟨⟨e⟩ | ⟨n⟩, p⟩ <;> exact ⟨rfl, rfl⟩
  | tell j =>
    refine ⟨j, .tell, fun i => ?_, ?_⟩
    · unfold callsOf; by_cases h : j = i <;> simp [h]
    · unfold step call
      dsimp only
      cases (parsers j).tell <;> exact ⟨rfl, rfl⟩
  | read j size fill =>
    refine ⟨j, .read size fill, fun i => ?_, ?_⟩
    · unfold callsOf; by_cases h : j = i <;> simp [h]
    · unfold step call
      dsimp only
      have h := sharedRead_data img (parsers j) fill size v s
      rw [← h]
      rcases (parsers j).sharedRead img fill size v s with ⟨⟨e⟩ | ⟨n⟩, p, v', s'⟩ <;> exact ⟨rfl, rfl⟩

theorem callsOf_cons (i : Nat) (x : Step) (rest : List Step) : callsOf i (x :: rest) = callsOf i [x] ++ callsOf i rest := by
  unfold callsOf
  rw [← List.filterMap_append]
  rfl

/-- C134: whatever parsers of shadow copies share the file objects of their volumes, and whatever else moves these between the calls: each of the parsers
answers as if it were alone (in particular, two parsers with different shadow copies of one volume can be read in turn), for every order of the
steps. -/
theorem C134_shadows (img : Image) (o : Opened) (fuel : Nat) (parsers : Nat → Parser) (v s : Nat) (steps : List Step) (answers : List (Nat × Answer))
    (h : runSteps img o fuel parsers v s steps = some answers) (i : Nat) :
    ∃ p, calls img o fuel (parsers i) (callsOf i steps) = some (answersOf i answers, p) := by
  induction steps generalizing parsers v s answers with
  | nil => cases h; exact ⟨_, rfl⟩
  | cons x rest ih =>
    rw [callsOf_cons]
    unfold runSteps at h
    have hstep := step_data img o fuel parsers v s x
    by_cases hm : ∃ v' s', x = .moved v' s'
    · obtain ⟨v', s', rfl⟩ := hm
      dsimp only at hstep
      rw [hstep] at h
      exact ih parsers v' s' answers h
    · have hstep : ∃ j c, (∀ i, callsOf i [x] = if j = i then [c] else []) ∧
          match step img o fuel parsers v s x with
          | none => call img o fuel (parsers j) c = none
          | some (none, _, _) => False
          | some (some (k, a, p), _, _) => k = j ∧ call img o fuel (parsers j) c = some (a, p) := by
        cases x with
        | moved v' s' => exact absurd ⟨v', s', rfl⟩ hm
        | _ => exact hstep
      obtain ⟨j, c, hc, hstep⟩ := hstep
      cases hx : step img o fuel parsers v s x with
      | none => rw [hx] at h; cases h
      | some r =>
        rw [hx] at h hstep
        obtain ⟨⟨⟩ | ⟨k, a, p⟩, v', s'⟩ := r
        · exact hstep.elim
        · dsimp only at h hstep
          obtain ⟨rfl, hcall⟩ := hstep
          cases hr : runSteps img o fuel (fun j => if j = k then p else parsers j) v' s' rest with
          | none => rw [hr] at h; cases h
          | some as =>
            rw [hr] at h
            cases h
            obtain ⟨q, hq⟩ := ih _ v' s' as hr
            rw [hc]
            by_cases hk : k = i
            · subst hk
              rw [if_pos rfl] at hq ⊢
              refine ⟨q, ?_⟩
              show calls img o fuel (parsers k) (c :: callsOf k rest) = _
              unfold calls
              rw [hcall]
              dsimp only
              rw [hq]
              unfold answersOf
              rw [List.filterMap_cons]
              dsimp only
              rw [if_pos rfl]
            · rw [if_neg hk]
              rw [if_neg (fun h => hk h.symm)] at hq
              refine ⟨q, ?_⟩
              unfold answersOf at hq ⊢
              rw [List.filterMap_cons]
              dsimp only
              rw [if_neg hk]
              exact hq

/-- A volume whose sectors are filled with 1, 2 and 3; a parser with a shadow copy without changes, and one with a shadow copy whose first block is at 512. -/
def stripes : Image := ⟨List.replicate 512 1 ++ List.replicate 512 2 ++ List.replicate 512 3, 0, none, none⟩
def unchangedCopy : Parser := ⟨⟨true, some 0x4000, some [], some [], some [], some [], some false⟩, [], 0⟩
def changedCopy : Parser := ⟨⟨true, some 0x4000, some [], some [], some [⟨0, 512, 512, 0, 0⟩], some [], some false⟩, [], 0⟩

/-- Two parsers that are read in turn. -/
example : runSteps stripes ⟨[], [], false⟩ 0 (fun i => if i = 0 then unchangedCopy else changedCopy) 0 0
    [.read 0 (some 3) false, .read 1 (some 2) false, .moved 1000 0, .tell 0, .seek 1 511 0, .read 0 (some 1) false, .read 1 (some 2) false] =
    some [(0, .data [1, 1, 1]), (1, .data [2, 2]), (0, .position 3), (1, .position 511), (0, .data [1]), (1, .data [2, 3])] := by decide +kernel

end Verif.Props.SharedShadow
