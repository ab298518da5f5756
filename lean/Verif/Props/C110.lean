/-
C110: what the command-line programs do to files.

`ntfs_parser` and `fat_parser` change no file other than the one named as the output, and they create no other file.  With a command line
that is not one of those in the usage text, with an input that cannot be opened, or with an offset that is not a number, no file is
changed at all.  When the output is not one of the inputs, the output file has exactly the rows (or the text) computed from the bytes of the
inputs; when this ends with an exception, the output file has what came before it, and the program does not end normally.

When the output is the file to read, its bytes are lost (`C110_same_file`).
-/
import Verif.Proof.Programs
import Verif.Props.C100
namespace Verif.Props.Programs
open Verif.Scripts Verif.Spec.Programs Verif.Proof.Programs

private theorem withOne_facts {α : Type} {encode : α → Option Bytes} {d : Disk} {a out : Str} {run : Bytes → Option (Gen α)} {r : Result}
    (h : withOne encode d a out run = some r) :
    (r = ⟨.failed, d⟩ ∨ ∃ run', produce encode d out run' = some r) := by
  unfold withOne at h
  split at h
  · injection h with h; exact .inl h.symm
  · exact .inr ⟨_, h⟩

private theorem withTwo_facts {α : Type} {encode : α → Option Bytes} {d : Disk} {a b out : Str} {run : Bytes → Bytes → Option (Gen α)} {r : Result}
    (h : withTwo encode d a b out run = some r) :
    (r = ⟨.failed, d⟩ ∨ ∃ run', produce encode d out run' = some r) := by
  unfold withTwo at h
  split at h
  · injection h with h; exact .inl h.symm
  · split at h
    · injection h with h; exact .inl h.symm
    · exact .inr ⟨_, h⟩

private theorem withOffset_facts {int : Str → Option Int} {d : Disk} {a b out : Str} {run : Bytes → Nat → Option (Gen Row)} {r : Result}
    (h : withOffset int d a b out run = some r) :
    (r = ⟨.failed, d⟩ ∨ (r = ⟨.usage, d⟩ ∧ int b = none ∧ ∃ file, Readable d a file) ∨ ∃ run', produce encodeRow d out run' = some r) := by
  unfold withOffset at h
  split at h
  · injection h with h; exact .inl h.symm
  · next n hn =>
    split at h
    · next hi =>
      injection h with h
      refine .inr (.inl ⟨h.symm, hi, ?_⟩)
      unfold Disk.openRead at hn
      rw [Option.filter_eq_some_iff] at hn
      exact ⟨_, n, hn.1, hn.2, rfl⟩
    · exact .inr (.inr ⟨_, h⟩)

/-- What a run of `ntfs_parser` comes to. -/
private theorem ntfs_cases {int : Str → Option Int} {order : List Nat → List Nat} {fuel : Nat} {args : List Str} {d : Disk} {r : Result}
    (h : ntfsParser int order fuel args d = some r) :
    (r = ⟨.usage, d⟩ ∧ ¬ Usage args) ∨
    (Usage args ∧ (r = ⟨.failed, d⟩ ∨ (r = ⟨.usage, d⟩ ∧ ∃ a o, UsageOffset args a o ∧ int o = none ∧ ∃ file, Readable d a file) ∨
      ∃ out, args.getLast? = some out ∧
        ((∃ run, produce encodeRow d out run = some r) ∨ ∃ run, produce utf8 d out run = some r))) := by
  unfold ntfsParser at h
  split at h
  · next mode a out =>
    by_cases h1 : mode = Str.ofString "--mft"
    · rw [if_pos h1] at h
      refine .inr ⟨.inl ⟨mode, a, out, rfl, by simp [h1]⟩, ?_⟩
      rcases withOne_facts h with h | ⟨run, h⟩
      · exact .inl h
      · exact .inr (.inr ⟨out, rfl, .inl ⟨run, h⟩⟩)
    rw [if_neg h1] at h
    by_cases h2 : mode = Str.ofString "--mem"
    · rw [if_pos h2] at h
      refine .inr ⟨.inl ⟨mode, a, out, rfl, by simp [h2]⟩, ?_⟩
      rcases withOne_facts h with h | ⟨run, h⟩
      · exact .inl h
      · exact .inr (.inr ⟨out, rfl, .inl ⟨run, h⟩⟩)
    rw [if_neg h2] at h
    by_cases h3 : mode = Str.ofString "--move"
    · rw [if_pos h3] at h
      refine .inr ⟨.inl ⟨mode, a, out, rfl, by simp [h3]⟩, ?_⟩
      rcases withOne_facts h with h | ⟨run, h⟩
      · exact .inl h
      · exact .inr (.inr ⟨out, rfl, .inr ⟨run, h⟩⟩)
    rw [if_neg h3] at h
    injection h with h
    refine .inl ⟨h.symm, ?_⟩
    rintro (⟨m, a', o', he, hm⟩ | ⟨m, a', b', o', he, hm⟩)
    · injection he with he _; subst he
      simp [h1, h2, h3] at hm
    · injection he with _ he; injection he with _ he; injection he with _ he; cases he
  · next mode a b out =>
    by_cases h1 : mode = Str.ofString "--usn"
    · rw [if_pos h1] at h
      refine .inr ⟨.inr ⟨mode, a, b, out, rfl, by simp [h1]⟩, ?_⟩
      rcases withTwo_facts h with h | ⟨run, h⟩
      · exact .inl h
      · exact .inr (.inr ⟨out, rfl, .inl ⟨run, h⟩⟩)
    rw [if_neg h1] at h
    by_cases h2 : mode = Str.ofString "--log"
    · rw [if_pos h2] at h
      refine .inr ⟨.inr ⟨mode, a, b, out, rfl, by simp [h2]⟩, ?_⟩
      rcases withTwo_facts h with h | ⟨run, h⟩
      · exact .inl h
      · exact .inr (.inr ⟨out, rfl, .inr ⟨run, h⟩⟩)
    rw [if_neg h2] at h
    by_cases h3 : mode = Str.ofString "--indx"
    · rw [if_pos h3] at h
      refine .inr ⟨.inr ⟨mode, a, b, out, rfl, by simp [h3]⟩, ?_⟩
      rcases withOffset_facts h with h | ⟨h, hi, hr⟩ | ⟨run, h⟩
      · exact .inl h
      · exact .inr (.inl ⟨h, a, b, ⟨mode, out, rfl, by simp [h3]⟩, hi, hr⟩)
      · exact .inr (.inr ⟨out, rfl, .inl ⟨run, h⟩⟩)
    rw [if_neg h3] at h
    by_cases h4 : mode = Str.ofString "--all-mft"
    · rw [if_pos h4] at h
      refine .inr ⟨.inr ⟨mode, a, b, out, rfl, by simp [h4]⟩, ?_⟩
      rcases withOffset_facts h with h | ⟨h, hi, hr⟩ | ⟨run, h⟩
      · exact .inl h
      · exact .inr (.inl ⟨h, a, b, ⟨mode, out, rfl, by simp [h4]⟩, hi, hr⟩)
      · exact .inr (.inr ⟨out, rfl, .inl ⟨run, h⟩⟩)
    rw [if_neg h4] at h
    injection h with h
    refine .inl ⟨h.symm, ?_⟩
    rintro (⟨m, a', o', he, hm⟩ | ⟨m, a', b', o', he, hm⟩)
    · injection he with _ he; injection he with _ he; injection he with _ he; cases he
    · injection he with he _; subst he
      simp [h1, h2, h3, h4] at hm
  · next hn3 hn4 =>
    injection h with h
    refine .inl ⟨h.symm, ?_⟩
    rintro (⟨m, a', o', he, hm⟩ | ⟨m, a', b', o', he, hm⟩)
    · exact hn3 _ _ _ he
    · exact hn4 _ _ _ _ he

/-- **Only the output changes**: whatever the arguments are and however the program ends, a path that is not the last argument, and does not
lead to the same file, leads to the same bytes as before, or to no file if it led to none. -/
theorem C110_others (int : Str → Option Int) (order : List Nat → List Nat) (fuel : Nat) (args : List Str) (d : Disk) (r : Result) (hs : Sound d)
    (h : ntfsParser int order fuel args d = some r) (q : Str) (hq : ∀ out, args.getLast? = some out → ¬ SamePlace d out q) :
    content r.disk q = content d q := by
  rcases ntfs_cases h with ⟨h, -⟩ | ⟨-, h | ⟨h, -⟩ | ⟨out, hl, ⟨run, h⟩ | ⟨run, h⟩⟩⟩
  · rw [h]
  · rw [h]
  · rw [h]
  · exact produce_others hs h q (hq out hl)
  · exact produce_others hs h q (hq out hl)

theorem C110_others_fat (int : Str → Option Int) (order : List Nat → List Nat) (depth : Nat) (args : List Str) (d : Disk) (r : Result)
    (hs : Sound d) (h : fatParserMain int order depth args d = some r) (q : Str) (hq : ∀ out, args.getLast? = some out → ¬ SamePlace d out q) :
    content r.disk q = content d q := by
  unfold fatParserMain at h
  split at h
  · next a o out =>
    rcases withOffset_facts h with h | ⟨h, -, -⟩ | ⟨run, h⟩
    · rw [h]
    · rw [h]
    · exact produce_others hs h q (hq out rfl)
  · injection h with h; rw [← h]

/-- **The usage text** is shown, and nothing else happens, for the command lines that are not in it, and for an offset that is not a number
(if the volume can be opened). -/
theorem C110_usage (int : Str → Option Int) (order : List Nat → List Nat) (fuel : Nat) (args : List Str) (d : Disk) (r : Result)
    (h : ntfsParser int order fuel args d = some r) :
    (r.outcome = .usage ↔ ¬ Usage args ∨ ∃ a o, UsageOffset args a o ∧ int o = none ∧ ∃ file, Readable d a file) ∧
    (r.outcome = .usage → r.disk = d) := by
  refine ⟨⟨?_, ?_⟩, ?_⟩
  · intro hu
    rcases ntfs_cases h with ⟨-, h⟩ | ⟨-, h | ⟨-, h⟩ | ⟨out, hl, ⟨run, h⟩ | ⟨run, h⟩⟩⟩
    · exact .inl h
    · rw [h] at hu; cases hu
    · exact .inr h
    · exact absurd hu (produce_usage h)
    · exact absurd hu (produce_usage h)
  · rintro (hu | ⟨a, o, ⟨mode, out, rfl, hm⟩, hi, file, hr⟩)
    · rcases ntfs_cases h with ⟨h, -⟩ | ⟨h, -⟩
      · rw [h]
      · exact absurd h hu
    · obtain ⟨n, hn, -, -⟩ := openRead_some hr
      have key : ∀ run, withOffset int d a o out run = some ⟨.usage, d⟩ := fun run => by
        simp only [withOffset, hn, hi]
      simp only [List.map_cons, List.map_nil, List.mem_cons, List.not_mem_nil, or_false] at hm
      rcases hm with rfl | rfl
      · simp only [ntfsParser] at h
        rw [if_neg (by decide), if_neg (by decide), if_pos trivial, key] at h
        injection h with h; rw [← h]
      · simp only [ntfsParser] at h
        rw [if_neg (by decide), if_neg (by decide), if_neg (by decide), if_pos trivial, key] at h
        injection h with h; rw [← h]
  · intro hu
    rcases ntfs_cases h with ⟨h, -⟩ | ⟨-, h | ⟨h, -⟩ | ⟨out, hl, ⟨run, h⟩ | ⟨run, h⟩⟩⟩
    · rw [h]
    · rw [h]
    · rw [h]
    · exact absurd hu (produce_usage h)
    · exact absurd hu (produce_usage h)

theorem C110_usage_fat (int : Str → Option Int) (order : List Nat → List Nat) (depth : Nat) (args : List Str) (d : Disk) (r : Result)
    (h : fatParserMain int order depth args d = some r) :
    (r.outcome = .usage ↔ args.length ≠ 3 ∨ ∃ a o out, args = [a, o, out] ∧ int o = none ∧ ∃ file, Readable d a file) ∧
    (r.outcome = .usage → r.disk = d) := by
  unfold fatParserMain at h
  split at h
  · next a o out =>
    refine ⟨⟨fun hu => .inr ?_, ?_⟩, ?_⟩
    · rcases withOffset_facts h with h | ⟨-, hi, hr⟩ | ⟨run, h⟩
      · rw [h] at hu; cases hu
      · exact ⟨a, o, out, rfl, hi, hr⟩
      · exact absurd hu (produce_usage h)
    · rintro (hl | ⟨a', o', out', he, hi, file, hr⟩)
      · exact absurd rfl hl
      · injection he with h1 he; injection he with h2 he
        subst h1; subst h2
        obtain ⟨n, hn, -, -⟩ := openRead_some hr
        simp only [withOffset, hn, hi, Option.some.injEq] at h
        rw [← h]
    · intro hu
      rcases withOffset_facts h with h | ⟨h, -, -⟩ | ⟨run, h⟩
      · rw [h]
      · rw [h]
      · exact absurd hu (produce_usage h)
  · next hn =>
    injection h with h
    subst h
    refine ⟨⟨fun _ => .inl fun hl => ?_, fun _ => rfl⟩, fun _ => rfl⟩
    match args, hl with
    | [a, o, out], _ => exact hn _ _ _ rfl

/-! The arguments select the function. -/

private theorem ntfs_mft (int : Str → Option Int) (order : List Nat → List Nat) (fuel : Nat) (d : Disk) (a out : Str) :
    ntfsParser int order fuel [Str.ofString "--mft", a, out] d = withOne encodeRow d a out fun file => some (processMft file none true) := by
  simp only [ntfsParser]
  rw [if_pos trivial]

private theorem ntfs_mem (int : Str → Option Int) (order : List Nat → List Nat) (fuel : Nat) (d : Disk) (a out : Str) :
    ntfsParser int order fuel [Str.ofString "--mem", a, out] d = withOne encodeRow d a out fun file => some (processMem file) := by
  simp only [ntfsParser]
  rw [if_neg (by decide), if_pos trivial]

private theorem ntfs_move (int : Str → Option Int) (order : List Nat → List Nat) (fuel : Nat) (d : Disk) (a out : Str) :
    ntfsParser int order fuel [Str.ofString "--move", a, out] d = withOne utf8 d a out fun file => some (processMoveTable file) := by
  simp only [ntfsParser]
  rw [if_neg (by decide), if_neg (by decide), if_pos trivial]

private theorem ntfs_usn (int : Str → Option Int) (order : List Nat → List Nat) (fuel : Nat) (d : Disk) (a b out : Str) :
    ntfsParser int order fuel [Str.ofString "--usn", a, b, out] d = withTwo encodeRow d a b out fun mft journal => processUsn journal mft := by
  simp only [ntfsParser]
  rw [if_pos trivial]

private theorem ntfs_log (int : Str → Option Int) (order : List Nat → List Nat) (fuel : Nat) (d : Disk) (a b out : Str) :
    ntfsParser int order fuel [Str.ofString "--log", a, b, out] d = withTwo utf8 d a b out fun mft log => processLog log mft order fuel := by
  simp only [ntfsParser]
  rw [if_neg (by decide), if_pos trivial]

private theorem ntfs_indx (int : Str → Option Int) (order : List Nat → List Nat) (fuel : Nat) (d : Disk) (a b out : Str) :
    ntfsParser int order fuel [Str.ofString "--indx", a, b, out] d = withOffset int d a b out fun image o => some (processIndx image o) := by
  simp only [ntfsParser]
  rw [if_neg (by decide), if_neg (by decide), if_pos trivial]

private theorem ntfs_all (int : Str → Option Int) (order : List Nat → List Nat) (fuel : Nat) (d : Disk) (a b out : Str) :
    ntfsParser int order fuel [Str.ofString "--all-mft", a, b, out] d = withOffset int d a b out fun image o => processAllMft image o fuel := by
  simp only [ntfsParser]
  rw [if_neg (by decide), if_neg (by decide), if_neg (by decide), if_pos trivial]

private theorem withOne_unopened {α : Type} {encode : α → Option Bytes} {d : Disk} {a out : Str} {run : Bytes → Option (Gen α)}
    (h : (¬ ∃ file, Readable d a file) ∨ ¬ CanWrite d out) : withOne encode d a out run = some ⟨.failed, d⟩ := by
  unfold withOne
  split
  · rfl
  · next n hn =>
    rcases h with h | h
    · rw [openRead_none h] at hn; cases hn
    · exact produce_closed h

private theorem withTwo_unopened {α : Type} {encode : α → Option Bytes} {d : Disk} {a b out : Str} {run : Bytes → Bytes → Option (Gen α)}
    (h : (∃ q ∈ [a, b], ¬ ∃ file, Readable d q file) ∨ ¬ CanWrite d out) : withTwo encode d a b out run = some ⟨.failed, d⟩ := by
  unfold withTwo
  split
  · rfl
  · next n hn =>
    split
    · rfl
    · next m hm =>
      rcases h with ⟨q, hq, h⟩ | h
      · simp only [List.mem_cons, List.not_mem_nil, or_false] at hq
        rcases hq with rfl | rfl
        · rw [openRead_none h] at hn; cases hn
        · rw [openRead_none h] at hm; cases hm
      · exact produce_closed h

private theorem withOffset_unopened {int : Str → Option Int} {d : Disk} {a b out : Str} {run : Bytes → Nat → Option (Gen Row)}
    (h : (¬ ∃ file, Readable d a file) ∨ ¬ CanWrite d out) : ∃ x, x ≠ Outcome.finished ∧ withOffset int d a b out run = some ⟨x, d⟩ := by
  unfold withOffset
  split
  · exact ⟨_, (fun h => by cases h), rfl⟩
  · next n hn =>
    split
    · exact ⟨_, (fun h => by cases h), rfl⟩
    · rcases h with h | h
      · rw [openRead_none h] at hn; cases hn
      · exact ⟨_, (fun h => by cases h), produce_closed h⟩

/-- **No file is changed when a file cannot be opened**, be it one of the inputs or the output: the output file is opened last. -/
theorem C110_unopened (int : Str → Option Int) (order : List Nat → List Nat) (fuel : Nat) (args inputs : List Str) (out : Str) (d : Disk)
    (hn : Names args inputs out) (h : (∃ a ∈ inputs, ¬ ∃ file, Readable d a file) ∨ ¬ CanWrite d out) :
    ∃ x, x ≠ Outcome.finished ∧ ntfsParser int order fuel args d = some ⟨x, d⟩ := by
  have hf : ∀ {y : Option Result}, y = some ⟨.failed, d⟩ → ∃ x, x ≠ Outcome.finished ∧ y = some ⟨x, d⟩ :=
    fun he => ⟨_, (fun h => by cases h), he⟩
  rcases hn with ⟨mode, a, rfl, rfl, hm⟩ | ⟨mode, a, b, rfl, rfl, hm⟩ | ⟨mode, a, o, rfl, rfl, hm⟩
  · have h' : (¬ ∃ file, Readable d a file) ∨ ¬ CanWrite d out := by simpa using h
    simp only [List.map_cons, List.map_nil, List.mem_cons, List.not_mem_nil, or_false] at hm
    rcases hm with rfl | rfl | rfl
    · rw [ntfs_mft]; exact hf (withOne_unopened h')
    · rw [ntfs_mem]; exact hf (withOne_unopened h')
    · rw [ntfs_move]; exact hf (withOne_unopened h')
  · simp only [List.map_cons, List.map_nil, List.mem_cons, List.not_mem_nil, or_false] at hm
    rcases hm with rfl | rfl
    · rw [ntfs_usn]; exact hf (withTwo_unopened h)
    · rw [ntfs_log]; exact hf (withTwo_unopened h)
  · have h' : (¬ ∃ file, Readable d a file) ∨ ¬ CanWrite d out := by simpa using h
    simp only [List.map_cons, List.map_nil, List.mem_cons, List.not_mem_nil, or_false] at hm
    rcases hm with rfl | rfl
    · rw [ntfs_indx]; exact withOffset_unopened h'
    · rw [ntfs_all]; exact withOffset_unopened h'

theorem C110_unopened_fat (int : Str → Option Int) (order : List Nat → List Nat) (depth : Nat) (a o out : Str) (d : Disk)
    (h : (¬ ∃ file, Readable d a file) ∨ ¬ CanWrite d out) :
    ∃ x, x ≠ Outcome.finished ∧ fatParserMain int order depth [a, o, out] d = some ⟨x, d⟩ := by
  unfold fatParserMain; exact withOffset_unopened h

private theorem withOne_written {α : Type} (piece : α → Str) {d : Disk} {a out : Str} {run : Bytes → Option (Gen α)} {g : Gen α} {file : Bytes}
    {report : Report} (hs : Sound d) (hw : CanWrite d out) (hr : Readable d a file) (hd : ¬ SamePlace d out a) (hrun : run file = some g)
    (hp : report.pieces = g.items.map piece) (he : report.err = g.err) :
    ∃ r, withOne (fun x => utf8 (piece x)) d a out run = some r ∧ ∃ bytes, content r.disk out = some bytes ∧ report.Written bytes r.outcome := by
  obtain ⟨n, hn, hf, hdata⟩ := openRead_some hr
  simp only [withOne, hn]
  refine produce_written piece hs hw (fun k d' ho => ?_) hp he
  rw [input_kept hs ho hd hf, hdata, hrun]

private theorem withTwo_written {α : Type} (piece : α → Str) {d : Disk} {a b out : Str} {run : Bytes → Bytes → Option (Gen α)} {g : Gen α}
    {file file' : Bytes} {report : Report} (hs : Sound d) (hw : CanWrite d out) (hr : Readable d a file) (hr' : Readable d b file')
    (hd : ¬ SamePlace d out a) (hd' : ¬ SamePlace d out b) (hrun : run file file' = some g)
    (hp : report.pieces = g.items.map piece) (he : report.err = g.err) :
    ∃ r, withTwo (fun x => utf8 (piece x)) d a b out run = some r ∧
      ∃ bytes, content r.disk out = some bytes ∧ report.Written bytes r.outcome := by
  obtain ⟨n, hn, hf, hdata⟩ := openRead_some hr
  obtain ⟨m, hm, hf', hdata'⟩ := openRead_some hr'
  simp only [withTwo, hn, hm]
  refine produce_written piece hs hw (fun k d' ho => ?_) hp he
  rw [input_kept hs ho hd hf, input_kept hs ho hd' hf', hdata, hdata', hrun]

private theorem withOffset_written {int : Str → Option Int} {d : Disk} {a o out : Str} {run : Bytes → Nat → Option (Gen Row)} {g : Gen Row}
    {file : Bytes} {k : Nat} (hs : Sound d) (hw : CanWrite d out) (hr : Readable d a file) (hi : int o = some (Int.ofNat k))
    (hd : ¬ SamePlace d out a) (hrun : run file k = some g) :
    ∃ r, withOffset int d a o out run = some r ∧
      ∃ bytes, content r.disk out = some bytes ∧ (Report.rows g).Written bytes r.outcome := by
  obtain ⟨n, hn, hf, hdata⟩ := openRead_some hr
  simp only [withOffset, hn, hi]
  refine produce_written (fun r : Row => csvRow (r.map Cell.text)) hs hw (fun j d' ho => ?_) rfl rfl
  rw [if_neg (by show ¬ (Int.ofNat k < 0); simp), input_kept hs ho hd hf, hdata]
  exact hrun

/-- **The output file has exactly what was asked for**, when it is none of the inputs: the rows or the text computed from the bytes of the
inputs.  The inputs stay as they are. -/
theorem C110_contents (int : Str → Option Int) (order : List Nat → List Nat) (fuel : Nat) (d : Disk) (args inputs : List Str) (out : Str)
    (report : Report) (hs : Sound d) (ha : Asked int order fuel d args inputs out report) (hw : CanWrite d out)
    (hd : ∀ a ∈ inputs, ¬ SamePlace d out a) :
    ∃ r, ntfsParser int order fuel args d = some r ∧ (∀ a ∈ inputs, content r.disk a = content d a) ∧
      ∃ bytes, content r.disk out = some bytes ∧ report.Written bytes r.outcome := by
  suffices hm : args.getLast? = some out ∧ ∃ r, ntfsParser int order fuel args d = some r ∧
      ∃ bytes, content r.disk out = some bytes ∧ report.Written bytes r.outcome by
    obtain ⟨hl, r, hr, hb⟩ := hm
    refine ⟨r, hr, fun a hmem => C110_others int order fuel args d r hs hr a fun out' ho => ?_, hb⟩
    rw [hl] at ho; injection ho with ho; rw [← ho]; exact hd a hmem
  have row : ∀ g : Gen Row, (Report.rows g).pieces = g.items.map (fun r : Row => csvRow (r.map Cell.text)) := fun _ => rfl
  have txt : ∀ g : Gen Str, (Report.text g).pieces = g.items.map (fun s : Str => s) := fun g => by simp [Report.pieces]
  cases ha with
  | mft hr => rw [ntfs_mft]; exact ⟨rfl, withOne_written _ hs hw hr (hd _ (by simp)) rfl (row _) rfl⟩
  | mem hr => rw [ntfs_mem]; exact ⟨rfl, withOne_written _ hs hw hr (hd _ (by simp)) rfl (row _) rfl⟩
  | move hr => rw [ntfs_move]; exact ⟨rfl, withOne_written _ hs hw hr (hd _ (by simp)) rfl (txt _) rfl⟩
  | usn hr hr' hrun => rw [ntfs_usn]; exact ⟨rfl, withTwo_written _ hs hw hr hr' (hd _ (by simp)) (hd _ (by simp)) hrun (row _) rfl⟩
  | log hr hr' hrun => rw [ntfs_log]; exact ⟨rfl, withTwo_written _ hs hw hr hr' (hd _ (by simp)) (hd _ (by simp)) hrun (txt _) rfl⟩
  | indx hr hi => rw [ntfs_indx]; exact ⟨rfl, withOffset_written hs hw hr hi (hd _ (by simp)) rfl⟩
  | allMft hr hi hrun => rw [ntfs_all]; exact ⟨rfl, withOffset_written hs hw hr hi (hd _ (by simp)) hrun⟩

theorem C110_contents_fat (int : Str → Option Int) (order : List Nat → List Nat) (depth : Nat) (d : Disk) (args inputs : List Str) (out : Str)
    (report : Report) (hs : Sound d) (ha : AskedFat int order depth d args inputs out report) (hw : CanWrite d out)
    (hd : ∀ a ∈ inputs, ¬ SamePlace d out a) :
    ∃ r, fatParserMain int order depth args d = some r ∧ (∀ a ∈ inputs, content r.disk a = content d a) ∧
      ∃ bytes, content r.disk out = some bytes ∧ report.Written bytes r.outcome := by
  suffices hm : args.getLast? = some out ∧ ∃ r, fatParserMain int order depth args d = some r ∧
      ∃ bytes, content r.disk out = some bytes ∧ report.Written bytes r.outcome by
    obtain ⟨hl, r, hr, hb⟩ := hm
    refine ⟨r, hr, fun a hmem => C110_others_fat int order depth args d r hs hr a fun out' ho => ?_, hb⟩
    rw [hl] at ho; injection ho with ho; rw [← ho]; exact hd a hmem
  cases ha with
  | mk hr hi hrun => unfold fatParserMain; exact ⟨rfl, withOffset_written hs hw hr hi (hd _ (by simp)) hrun⟩

/-- **The input can be lost**: with the same file as the input and as the output, the file is emptied before it is read, and the program ends
with an exception. -/
theorem C110_same_file (int : Str → Option Int) (order : List Nat → List Nat) (fuel : Nat) (d : Disk) (a : Str) (n : Nat)
    (hf : d.file a = some n) (hr : d.readable n = true) (hw : d.writable n = true) :
    ∃ r, ntfsParser int order fuel [Str.ofString "--mft", a, a] d = some r ∧ r.outcome = .failed ∧ content r.disk a = some [] := by
  have ho : d.openWrite a = some (n, d.put n []) := by simp [Disk.openWrite, hf, hw]
  have hrd : d.openRead a = some n := by simp [Disk.openRead, hf, hr]
  have hi : processMft [] none true = .fail .FileRecordSegmentSignatureException := rfl
  refine ⟨finish encodeRow (d.put n []) n (.fail .FileRecordSegmentSignatureException), ?_, rfl, ?_⟩
  · rw [ntfs_mft]
    simp only [withOne, hrd, produce, ho, put_data, hi]
  · show (d.file a).map ((d.put n []).put n _).data = _
    rw [hf, Option.map_some, put_data]
    rfl

/-! ### Examples -/

/-- A disk with a file `a`, which may be read and written, and a place for a file `o`. -/
def sampleDisk (bytes : Bytes) : Disk where
  file p := if p = Str.ofString "a" then some 0 else none
  data _ := bytes
  readable _ := true
  writable _ := true
  creatable p := decide (p = Str.ofString "o")
  next := 1

theorem sampleDisk_sound (bytes : Bytes) : Sound (sampleDisk bytes) := by
  intro p n h
  simp only [sampleDisk] at h
  split at h
  · injection h with h; subst h; exact Nat.zero_lt_one
  · cases h

/-- A whole run: the report on a move table, which is the text of its four parts. -/
example : ∃ r, ntfsParser (fun _ => none) id 0 [Str.ofString "--move", Str.ofString "a", Str.ofString "o"] (sampleDisk demoMoveTable) = some r ∧
    r.outcome = .finished ∧ content r.disk (Str.ofString "o") = utf8 (processMoveTable demoMoveTable).items.flatten := by
  refine ⟨_, rfl, ?_, ?_⟩ <;> decide +kernel

/-- A run that ends with an exception: an image of the memory that is too short.  The header was written before it. -/
example : ∃ r, ntfsParser (fun _ => none) id 0 [Str.ofString "--mem", Str.ofString "a", Str.ofString "o"] (sampleDisk [1, 2, 3]) = some r ∧
    r.outcome = .failed ∧ content r.disk (Str.ofString "a") = some [1, 2, 3] ∧
    content r.disk (Str.ofString "o") =
      utf8 (Str.ofString "Possible MFT reference number,M timestamp,A timestamp,C timestamp,E timestamp,A timestamp (real)\r\n") := by
  refine ⟨_, rfl, ?_, ?_, ?_⟩ <;> decide +kernel

/-- The hypotheses of `C110_contents` hold for it. -/
example : Asked (fun _ => none) id 0 (sampleDisk [1, 2, 3]) [Str.ofString "--mem", Str.ofString "a", Str.ofString "o"] [Str.ofString "a"]
      (Str.ofString "o") (.rows (processMem [1, 2, 3])) ∧ CanWrite (sampleDisk [1, 2, 3]) (Str.ofString "o") ∧
    ¬ SamePlace (sampleDisk [1, 2, 3]) (Str.ofString "o") (Str.ofString "a") := by
  refine ⟨.mem ⟨0, by decide, rfl, rfl⟩, .inr ⟨by decide, by decide⟩, ?_⟩
  rintro (h | ⟨n, h, -⟩)
  · exact absurd h (by decide)
  · exact absurd h (by simp [sampleDisk, show Str.ofString "o" ≠ Str.ofString "a" by decide])

/-- A file that is not a file table: the program ends with an exception, with an empty output file. -/
example : ∃ r, ntfsParser (fun _ => none) id 0 [Str.ofString "--mft", Str.ofString "a", Str.ofString "o"] (sampleDisk [1, 2, 3]) = some r ∧
    r.outcome = .failed ∧ content r.disk (Str.ofString "a") = some [1, 2, 3] ∧ content r.disk (Str.ofString "o") = some [] := by
  refine ⟨_, rfl, ?_, ?_, ?_⟩ <;> decide +kernel

/-- A wrong number of arguments, an input that does not exist, and a place where no file can be created. -/
example : (∃ r, ntfsParser (fun _ => none) id 0 [Str.ofString "--mft", Str.ofString "a"] (sampleDisk []) = some r ∧ r.outcome = .usage) ∧
    (∃ r, ntfsParser (fun _ => none) id 0 [Str.ofString "--mft", Str.ofString "b", Str.ofString "o"] (sampleDisk []) = some r ∧
      r.outcome = .failed ∧ content r.disk (Str.ofString "o") = none) ∧
    (∃ r, ntfsParser (fun _ => none) id 0 [Str.ofString "--mft", Str.ofString "a", Str.ofString "b"] (sampleDisk [7]) = some r ∧
      r.outcome = .failed ∧ content r.disk (Str.ofString "a") = some [7]) := by
  refine ⟨⟨_, rfl, rfl⟩, ⟨_, rfl, ?_, ?_⟩, ⟨_, rfl, ?_, ?_⟩⟩ <;> decide +kernel

end Verif.Props.Programs
