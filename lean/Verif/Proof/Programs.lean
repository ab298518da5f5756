/-
Lemmas for C110: writing to files.
-/
import Verif.Spec.Programs
namespace Verif.Proof.Programs
open Verif.Scripts Verif.Spec.Programs

theorem utf8_append (s t : Str) : utf8 (s ++ t) = (utf8 s).bind fun a => (utf8 t).map (a ++ ·) := by
  induction s with
  | nil => simp [utf8]
  | cons c s ih =>
    simp only [List.cons_append, utf8, ih]
    cases utf8Char c with
    | none => rfl
    | some x =>
      cases utf8 s with
      | none => rfl
      | some a => cases utf8 t <;> simp

/-- What `writeAll` writes, for an encoding through UTF-8. -/
theorem writeAll_encoded {α : Type} (piece : α → Str) (l : List α) :
    (if (writeAll (fun a => utf8 (piece a)) l).2 = true then Encoded (l.map piece) l.length (writeAll (fun a => utf8 (piece a)) l).1
      else ∃ n p, (l.map piece)[n]? = some p ∧ utf8 p = none ∧ Encoded (l.map piece) n (writeAll (fun a => utf8 (piece a)) l).1) := by
  induction l with
  | nil => simp [writeAll, Encoded, utf8]
  | cons a rest ih =>
    cases ha : utf8 (piece a) with
    | none =>
      simp only [writeAll, ha]
      exact ⟨0, piece a, rfl, ha, rfl⟩
    | some b =>
      simp only [writeAll, ha]
      cases hw : (writeAll (fun a => utf8 (piece a)) rest).2 with
      | true =>
        rw [hw, if_pos rfl] at ih
        simp only [if_pos, Encoded, List.map_cons, List.length_cons, List.take_succ_cons, List.flatten_cons, utf8_append, ha] at ih ⊢
        rw [ih]; rfl
      | false =>
        rw [hw, if_neg (by decide)] at ih
        obtain ⟨n, p, hp, hn, he⟩ := ih
        rw [if_neg (by decide)]
        refine ⟨n + 1, p, hp, hn, ?_⟩
        simp only [Encoded, List.map_cons, List.take_succ_cons, List.flatten_cons, utf8_append, ha] at he ⊢
        rw [he]; rfl

theorem put_data (d : Disk) (n : Nat) (b : Bytes) : (d.put n b).data n = b := by simp [Disk.put]
theorem put_other (d : Disk) (n k : Nat) (b : Bytes) (h : k ≠ n) : (d.put n b).data k = d.data k := by simp [Disk.put, h]

/-- After the output file was opened: the path of the output leads to it, it is empty, and nothing else is different. -/
theorem openWrite_facts {d : Disk} {out : Str} {n : Nat} {d' : Disk} (hs : Sound d) (h : d.openWrite out = some (n, d')) :
    d'.file out = some n ∧ d'.data n = [] ∧
    (∀ q, ¬ SamePlace d out q → d'.file q = d.file q ∧ ∀ k, d'.file q = some k → k ≠ n ∧ d'.data k = d.data k) := by
  unfold Disk.openWrite at h
  cases hf : d.file out with
  | some m =>
    rw [hf] at h; dsimp only at h
    split at h
    · injection h with h; injection h with h1 h2; subst h1; subst h2
      refine ⟨hf, put_data d m [], fun q hq => ⟨rfl, fun k hk => ?_⟩⟩
      have hne : k ≠ m := fun e => hq (.inr ⟨m, hf, by rw [← e]; exact hk⟩)
      exact ⟨hne, put_other d m k [] hne⟩
    · exact absurd h (by simp)
  | none =>
    rw [hf] at h; dsimp only at h
    split at h
    · injection h with h; injection h with h1 h2; subst h1; subst h2
      refine ⟨by simp, put_data d _ [], fun q hq => ?_⟩
      have hne : q ≠ out := fun e => hq (.inl e.symm)
      refine ⟨by simp [hne], fun k hk => ?_⟩
      have hk' : d.file q = some k := by simpa [hne] using hk
      have hlt := hs q k hk'
      have : k ≠ d.next := by omega
      exact ⟨this, put_other d _ k [] this⟩
    · exact absurd h (by simp)

theorem openWrite_some {d : Disk} {out : Str} (h : CanWrite d out) : ∃ n d', d.openWrite out = some (n, d') := by
  rcases h with ⟨n, hf, hw⟩ | ⟨hf, hc⟩
  · exact ⟨n, d.put n [], by simp [Disk.openWrite, hf, hw]⟩
  · refine ⟨d.next, ?_, ?_⟩
    rotate_left
    · unfold Disk.openWrite
      rw [hf]; dsimp only; rw [if_pos hc]

theorem openWrite_none {d : Disk} {out : Str} (h : ¬ CanWrite d out) : d.openWrite out = none := by
  unfold Disk.openWrite
  cases hf : d.file out with
  | some m => dsimp only; rw [if_neg]; exact fun hw => h (.inl ⟨m, hf, hw⟩)
  | none => dsimp only; rw [if_neg]; exact fun hw => h (.inr ⟨hf, hw⟩)

theorem openRead_some {d : Disk} {a : Str} {file : Bytes} (h : Readable d a file) :
    ∃ n, d.openRead a = some n ∧ d.file a = some n ∧ d.data n = file := by
  obtain ⟨n, hf, hr, hd⟩ := h
  exact ⟨n, by simp [Disk.openRead, hf, hr], hf, hd⟩

theorem openRead_none {d : Disk} {a : Str} (h : ¬ ∃ file, Readable d a file) : d.openRead a = none := by
  unfold Disk.openRead
  cases hf : d.file a with
  | none => rfl
  | some n =>
    simp only [Option.filter]
    rw [if_neg]
    exact fun hr => h ⟨_, n, hf, hr, rfl⟩

/-- The files other than the output file stay as they are. -/
theorem finish_others {α : Type} {encode : α → Option Bytes} {d d' : Disk} {out : Str} {n : Nat} {g : Gen α} (hs : Sound d)
    (h : d.openWrite out = some (n, d')) (q : Str) (hq : ¬ SamePlace d out q) : content (finish encode d' n g).disk q = content d q := by
  obtain ⟨-, -, ho⟩ := openWrite_facts hs h
  obtain ⟨hf, hk⟩ := ho q hq
  unfold content finish
  show (d'.file q).map (d'.put n _).data = _
  rw [← hf]
  cases hq' : d'.file q with
  | none => rfl
  | some k =>
    obtain ⟨hne, hd⟩ := hk k hq'
    simp only [Option.map_some, put_other d' n k _ hne, hd]

theorem produce_others {α : Type} {encode : α → Option Bytes} {d : Disk} {out : Str} {run : (Nat → Bytes) → Option (Gen α)} {r : Result}
    (hs : Sound d) (h : produce encode d out run = some r) (q : Str) (hq : ¬ SamePlace d out q) : content r.disk q = content d q := by
  unfold produce at h
  split at h
  · injection h with h; subst h; rfl
  · next n d' hw =>
    split at h
    · exact absurd h (by simp)
    · next g _ => injection h with h; subst h; exact finish_others hs hw q hq

theorem finish_usage {α : Type} (encode : α → Option Bytes) (d : Disk) (n : Nat) (g : Gen α) : (finish encode d n g).outcome ≠ .usage := by
  unfold finish; dsimp only; split <;> exact fun h => by cases h

theorem produce_usage {α : Type} {encode : α → Option Bytes} {d : Disk} {out : Str} {run : (Nat → Bytes) → Option (Gen α)} {r : Result}
    (h : produce encode d out run = some r) : r.outcome ≠ .usage := by
  unfold produce at h
  split at h
  · injection h with h; subst h; exact fun h => by cases h
  · split at h
    · exact absurd h (by simp)
    · injection h with h; subst h; exact finish_usage _ _ _ _

/-- The output cannot be opened: nothing is different. -/
theorem produce_closed {α : Type} {encode : α → Option Bytes} {d : Disk} {out : Str} {run : (Nat → Bytes) → Option (Gen α)}
    (h : ¬ CanWrite d out) : produce encode d out run = some ⟨.failed, d⟩ := by
  unfold produce; rw [openWrite_none h]

/-- What is written, for an encoding through UTF-8. -/
theorem finish_written {α : Type} (piece : α → Str) (d : Disk) (out : Str) (n : Nat) (g : Gen α) (report : Report) (hf : d.file out = some n)
    (hp : report.pieces = g.items.map piece) (he : report.err = g.err) :
    ∃ bytes, content (finish (fun a => utf8 (piece a)) d n g).disk out = some bytes ∧
      report.Written bytes (finish (fun a => utf8 (piece a)) d n g).outcome := by
  refine ⟨(writeAll (fun a => utf8 (piece a)) g.items).1, ?_, ?_⟩
  · unfold content finish
    show (d.file out).map (d.put n _).data = _
    rw [hf, Option.map_some, put_data]
  · have hw := writeAll_encoded piece g.items
    unfold finish
    dsimp only
    cases h2 : (writeAll (fun a => utf8 (piece a)) g.items).2 with
    | true =>
      rw [h2, if_pos rfl] at hw
      cases herr : g.err with
      | none =>
        rw [if_pos ⟨rfl, rfl⟩]
        exact ⟨by rw [he, herr], by rw [hp, List.length_map]; exact hw⟩
      | some e =>
        rw [if_neg (fun h => by cases h.2)]
        exact .inl ⟨by rw [he, herr]; exact (fun h => by cases h), by rw [hp, List.length_map]; exact hw⟩
    | false =>
      rw [h2, if_neg (by decide)] at hw
      rw [if_neg (fun h => by cases h.1)]
      exact .inr (by rw [hp]; exact hw)

theorem produce_written {α : Type} (piece : α → Str) {d : Disk} {out : Str} {run : (Nat → Bytes) → Option (Gen α)} {g : Gen α}
    {report : Report} (hs : Sound d) (hw : CanWrite d out)
    (hrun : ∀ n d', d.openWrite out = some (n, d') → run d'.data = some g)
    (hp : report.pieces = g.items.map piece) (he : report.err = g.err) :
    ∃ r, produce (fun a => utf8 (piece a)) d out run = some r ∧ ∃ bytes, content r.disk out = some bytes ∧ report.Written bytes r.outcome := by
  obtain ⟨n, d', ho⟩ := openWrite_some hw
  refine ⟨finish (fun a => utf8 (piece a)) d' n g, by simp only [produce, ho, hrun n d' ho], ?_⟩
  exact finish_written piece d' out n g report (openWrite_facts hs ho).1 hp he

/-- What is read from an input that is not the output. -/
theorem input_kept {d d' : Disk} {a out : Str} {n m : Nat} (hs : Sound d) (ho : d.openWrite out = some (n, d')) (hd : ¬ SamePlace d out a)
    (hf : d.file a = some m) : d'.data m = d.data m := by
  obtain ⟨-, -, h⟩ := openWrite_facts hs ho
  obtain ⟨hq, hk⟩ := h a hd
  exact (hk m (by rw [hq]; exact hf)).2

end Verif.Proof.Programs
