/-
Lemmas about paths: `build_full_paths` and `get_file_record_by_path`.
-/
import Verif.Proof.Parser
namespace Verif.MFT
open Verif.Attributes Verif.Spec.Parser Verif.Props

/-! ### Names -/

theorem fileNameFlags_ok {v : Bytes} {n : Nat} : fileNameFlags v = .ok n ↔ 66 ≤ v.length ∧ n = u8 v 65 := by
  unfold fileNameFlags
  constructor
  · intro h
    obtain ⟨h1, h2⟩ := unpackLE_ok h
    rw [slice_length] at h1
    exact ⟨by omega, h2.symm⟩
  · rintro ⟨h1, rfl⟩
    exact unpackLE_of_length (by rw [slice_length]; omega)

theorem fileNameName_ok {v : Bytes} {s : Str} : fileNameName v = .ok s ↔ 65 ≤ v.length ∧ s = nameOf v := by
  unfold fileNameName
  constructor
  · intro h
    cases hu : unpackLE 1 (slice v 64 65) with
    | error e => rw [hu] at h; cases h
    | ok n =>
      rw [hu] at h
      cases h
      obtain ⟨h1, h2⟩ := unpackLE_ok hu
      rw [slice_length] at h1
      refine ⟨by omega, ?_⟩
      unfold nameOf
      rw [← h2]; rfl
  · rintro ⟨h1, rfl⟩
    rw [unpackLE_of_length (by rw [slice_length]; omega)]
    rfl

theorem fileNameParent_ok {v : Bytes} {n : Nat} : fileNameParent v = .ok n ↔ 8 ≤ v.length ∧ n = parentOf v := by
  unfold fileNameParent
  constructor
  · intro h
    obtain ⟨h1, h2⟩ := unpackLE_ok h
    rw [slice_length] at h1
    exact ⟨by omega, h2.symm⟩
  · rintro ⟨h1, rfl⟩
    exact unpackLE_of_length (by rw [slice_length]; omega)

theorem preferredFlags_eq (v : Bytes) : preferredFlags (u8 v 65) = isPreferred v := by
  unfold preferredFlags isPreferred
  congr 1
  have := Nat.and_one_is_mod (u8 v 65)
  rw [this]
  have : u8 v 65 % 2 < 2 := Nat.mod_lt _ (by omega)
  generalize u8 v 65 % 2 = x at *
  rcases (show x = 0 ∨ x = 1 by omega) with rfl | rfl <;> rfl

theorem fileNameValue_cases (a : AttributeRecord) :
    (∃ n v, a = .resident 0x30 n v ∧ a.fileNameValue = .ok (some v)) ∨
    (∃ n v, a = .resident 0xA0 n v ∧ a.fileNameValue = .error .AttributeError) ∨
    ((∀ n v, a ≠ .resident 0xA0 n v) ∧ (∀ n v, a ≠ .resident 0x30 n v) ∧ a.fileNameValue = .ok none) := by
  cases a with
  | nonresident => exact .inr (.inr ⟨fun _ _ h => (by cases h), fun _ _ h => (by cases h), rfl⟩)
  | resident t n v =>
    by_cases h1 : t = 0x30
    · subst h1; exact .inl ⟨n, v, rfl, rfl⟩
    · by_cases h2 : t = 0xA0
      · subst h2; exact .inr (.inl ⟨n, v, rfl, rfl⟩)
      · refine .inr (.inr ⟨fun _ _ h => (by cases h; exact h2 rfl), fun _ _ h => (by cases h; exact h1 rfl), ?_⟩)
        unfold AttributeRecord.fileNameValue
        dsimp only
        rw [if_neg h1, if_neg h2]

theorem fileNames_cons_name (n : Option Bytes) (v : Bytes) (l : List AttributeRecord) :
    fileNames (.resident 0x30 n v :: l) = v :: fileNames l := by
  unfold fileNames; rw [List.filterMap_cons]; rfl

theorem fileNames_cons_other {a : AttributeRecord} (h : ∀ n v, a ≠ .resident 0x30 n v) (l : List AttributeRecord) :
    fileNames (a :: l) = fileNames l := by
  unfold fileNames
  rw [List.filterMap_cons]
  split
  · rfl
  · next heq =>
    split at heq
    · exact absurd rfl (h _ _)
    · cases heq

/-- The tuples are those of the readable file names. -/
theorem nameTuples_ok (err : Option Exc) : ∀ (l : List AttributeRecord) (ts : List (Nat × Str × Nat)),
    nameTuples err l = .ok ts ↔ err = none ∧ (∀ a ∈ l, ∀ n v, a ≠ .resident 0xA0 n v) ∧ (∀ v ∈ fileNames l, 66 ≤ v.length) ∧
      ts = (fileNames l).map fun v => (u8 v 65, nameOf v, parentOf v)
  | [], ts => by
    unfold nameTuples
    cases err with
    | none => simp [fileNames]
    | some e => simp
  | a :: l, ts => by
    unfold nameTuples
    rcases fileNameValue_cases a with ⟨n, v, rfl, h⟩ | ⟨n, v, rfl, h⟩ | ⟨h1, h2, h⟩
    · rw [h, fileNames_cons_name]
      dsimp only
      constructor
      · intro hh
        cases hf : fileNameFlags v with
        | error e => rw [hf] at hh; cases hh
        | ok fl =>
          cases hn : fileNameName v with
          | error e => rw [hf, hn] at hh; cases hh
          | ok nm =>
            cases hp : fileNameParent v with
            | error e => rw [hf, hn, hp] at hh; cases hh
            | ok pr =>
              cases hr : nameTuples err l with
              | error e => rw [hf, hn, hp, hr] at hh; cases hh
              | ok ts' =>
                rw [hf, hn, hp, hr] at hh
                cases hh
                obtain ⟨i1, i2, i3, i4⟩ := (nameTuples_ok err l ts').1 hr
                obtain ⟨f1, f2⟩ := fileNameFlags_ok.1 hf
                obtain ⟨g1, g2⟩ := fileNameName_ok.1 hn
                obtain ⟨p1, p2⟩ := fileNameParent_ok.1 hp
                refine ⟨i1, ?_, ?_, by rw [List.map_cons, f2, g2, p2, i4]⟩
                · intro a ha
                  rcases List.mem_cons.1 ha with rfl | ha
                  · intro n' v' hc; cases hc
                  · exact i2 a ha
                · intro w hw
                  rcases List.mem_cons.1 hw with rfl | hw
                  · exact f1
                  · exact i3 w hw
      · rintro ⟨i1, i2, i3, rfl⟩
        have hv := i3 v (List.mem_cons_self ..)
        rw [fileNameFlags_ok.2 ⟨hv, rfl⟩, fileNameName_ok.2 ⟨by omega, rfl⟩, fileNameParent_ok.2 ⟨by omega, rfl⟩,
          (nameTuples_ok err l _).2 ⟨i1, fun a ha => i2 a (List.mem_cons_of_mem _ ha), fun w hw => i3 w (List.mem_cons_of_mem _ hw), rfl⟩]
        rfl
    · rw [h]
      constructor
      · intro hh; cases hh
      · rintro ⟨-, i2, -⟩
        exact absurd rfl (i2 _ (List.mem_cons_self ..) n v)
    · rw [h, fileNames_cons_other h2]
      dsimp only
      rw [nameTuples_ok err l ts]
      constructor
      · rintro ⟨i1, i2, i3, i4⟩
        refine ⟨i1, ?_, i3, i4⟩
        intro b hb
        rcases List.mem_cons.1 hb with rfl | hb
        · exact h1
        · exact i2 b hb
      · rintro ⟨i1, i2, i3, i4⟩
        exact ⟨i1, fun b hb => i2 b (List.mem_cons_of_mem _ hb), i3, i4⟩

/-- The name that is used for a directory. -/
theorem preferredFileName_ok {r : FileRecord} {x : Str × Nat} : preferredFileName r = .ok x ↔
    Readable r ∧ ∃ v, directoryName r = some v ∧ x = (nameOf v, parentOf v) := by
  have hfind : ∀ l : List Bytes, (l.map fun v => (u8 v 65, nameOf v, parentOf v)).find? (fun x => preferredFlags x.1) =
      (l.find? isPreferred).map fun v => (u8 v 65, nameOf v, parentOf v) := by
    intro l
    induction l with
    | nil => rfl
    | cons v l ih =>
      rw [List.map_cons]
      by_cases hp : isPreferred v = true
      · rw [List.find?_cons_of_pos (by rw [preferredFlags_eq]; exact hp), List.find?_cons_of_pos hp]; rfl
      · rw [List.find?_cons_of_neg (by rw [preferredFlags_eq]; exact hp), List.find?_cons_of_neg hp, ih]
  unfold preferredFileName
  constructor
  · intro h
    cases ht : nameTuples r.attributes.err r.attributes.items with
    | error e => rw [ht] at h; cases h
    | ok ts =>
      obtain ⟨i1, i2, i3, i4⟩ := (nameTuples_ok _ _ _).1 ht
      rw [ht] at h
      refine ⟨⟨i1, i2, i3⟩, ?_⟩
      unfold directoryName
      cases hl : fileNames r.attributes.items with
      | nil => rw [hl] at i4; subst i4; cases h
      | cons v l =>
        rw [hl] at i4
        subst i4
        rw [List.map_cons] at h
        dsimp only at h
        rw [← List.map_cons (f := fun v => (u8 v 65, nameOf v, parentOf v)), hfind] at h
        cases hf : (v :: l).find? isPreferred with
        | none => rw [hf] at h; cases h; exact ⟨v, rfl, rfl⟩
        | some w => rw [hf] at h; cases h; exact ⟨w, rfl, rfl⟩
  · rintro ⟨⟨i1, i2, i3⟩, v, hv, rfl⟩
    rw [(nameTuples_ok _ _ _).2 ⟨i1, i2, i3, rfl⟩]
    unfold directoryName at hv
    cases hl : fileNames r.attributes.items with
    | nil => rw [hl] at hv; cases hv
    | cons w l =>
      rw [hl] at hv
      rw [List.map_cons]
      dsimp only
      rw [← List.map_cons (f := fun v => (u8 v 65, nameOf v, parentOf v)), hfind]
      cases hf : (w :: l).find? isPreferred with
      | none => rw [hf] at hv; cases hv; rfl
      | some u => rw [hf] at hv; cases hv; rfl

/-! ### Climbing -/

theorem isDirectory_eq (r : FileRecord) : r.isDirectory = (flagsOf r.base).testBit 1 := by
  unfold FileRecord.isDirectory
  rw [flags_eq]
  have := and_two_pow_pos (flagsOf r.base) 1
  cases hb : (flagsOf r.base).testBit 1 <;> simp_all

/-- Where a climb stops, and how the path begins. -/
def Stop (file : Bytes) (size : Nat) (seen : List Nat) (top : Nat) (pre : Str) : Prop :=
  (pre = [] ∧ number top = 5 ∧ ∃ r, IsRecord file size (number top) (sequence top) r) ∨
  (pre = unknownPathPlaceholder ∧
    (number top ∈ seen ∨ (¬ ∃ r, IsRecord file size (number top) (sequence top) r) ∨
      (number top ≠ 5 ∧ ∃ r, IsRecord file size (number top) (sequence top) r ∧ (flagsOf r.base).testBit 1 = false)))

theorem getBaseRecord_some {p : Parser} (hp : p.Loaded) {ref : Nat} {r : FileRecord} :
    p.getBaseRecord (number ref) (some (sequence ref)) = .ok r ↔ IsRecord p.file p.size (number ref) (sequence ref) r := by
  rw [getBaseRecord_iff hp]
  constructor
  · rintro ⟨s, h, h' | h'⟩
    · cases h'
    · cases h'; exact h
  · exact fun h => ⟨_, h, .inr rfl⟩

theorem getBaseRecord_none {p : Parser} (hp : p.Loaded) {ref : Nat} {e : Exc}
    (h : p.getBaseRecord (number ref) (some (sequence ref)) = .error e) :
    isMftExc e = true ∧ ¬ ∃ r, IsRecord p.file p.size (number ref) (sequence ref) r :=
  ⟨getBaseRecord_error hp h, fun ⟨r, hr⟩ => by rw [(getBaseRecord_some hp).2 hr] at h; cases h⟩

theorem climbLoop_sound {p : Parser} (hp : p.Loaded) : ∀ (fuel : Nat) (track : List Nat) (ref : Nat) (current : FileRecord)
    (components out : List Str), IsRecord p.file p.size (number ref) (sequence ref) current → number ref ≠ 5 →
    current.isDirectory = true → number ref ∈ track → climbLoop p fuel track current components = some (.ok out) →
    ∃ v dirs top pre, Chain p.file p.size ref ((number ref, current, v) :: dirs) top ∧
      (dirs.map (·.1)).Nodup ∧ (∀ n ∈ dirs.map (·.1), n ∉ track) ∧
      out = components ++ nameOf v :: dirs.map (fun d => nameOf d.2.2) ++ [pre] ∧
      Stop p.file p.size (track ++ dirs.map (·.1)) top pre
  | 0, _, _, _, _, _, _, _, _, _, h => by cases h
  | fuel + 1, track, ref, current, components, out, hrec, hroot, hdir, htrack, h => by
    unfold climbLoop at h
    cases hpn : preferredFileName current with
    | error e => rw [hpn] at h; cases h
    | ok x =>
      obtain ⟨nm, rf⟩ := x
      obtain ⟨hread, v, hv, hx⟩ := preferredFileName_ok.1 hpn
      cases hx
      rw [hpn] at h
      dsimp only at h
      rw [decode_ref] at h
      dsimp only at h
      have single : ∀ pre, Stop p.file p.size track (parentOf v) pre → out = components ++ [nameOf v] ++ [pre] →
          ∃ v dirs top pre, Chain p.file p.size ref ((number ref, current, v) :: dirs) top ∧
          (dirs.map (·.1)).Nodup ∧ (∀ n ∈ dirs.map (·.1), n ∉ track) ∧
          out = components ++ nameOf v :: dirs.map (fun d => nameOf d.2.2) ++ [pre] ∧
          Stop p.file p.size (track ++ dirs.map (·.1)) top pre := by
        intro pre hst hout
        exact ⟨v, [], parentOf v, pre, .up hrec hroot (isDirectory_eq _ ▸ hdir) hread hv (.here _), by simp, by simp, by simpa using hout, by simpa using hst⟩
      by_cases hin : number (parentOf v) ∈ track
      · rw [if_pos hin] at h
        cases h
        exact single _ (.inr ⟨rfl, .inl hin⟩) rfl
      · rw [if_neg hin] at h
        cases hg : p.getBaseRecord (number (parentOf v)) (some (sequence (parentOf v))) with
        | error e =>
          rw [hg] at h
          dsimp only at h
          obtain ⟨h1, h2⟩ := getBaseRecord_none hp hg
          rw [if_pos h1] at h
          cases h
          exact single _ (.inr ⟨rfl, .inr (.inl h2)⟩) rfl
        | ok next =>
          have hnext := (getBaseRecord_some hp).1 hg
          rw [hg] at h
          dsimp only at h
          by_cases h5 : number (parentOf v) = fileNumberRoot
          · rw [if_pos h5] at h
            cases h
            exact single _ (.inl ⟨rfl, h5, next, hnext⟩) rfl
          · rw [if_neg h5] at h
            by_cases hd : next.isDirectory = true
            · rw [if_neg (by simpa using hd)] at h
              obtain ⟨w, dirs, top, pre, e1, e2, e3, e4, e5⟩ := climbLoop_sound hp fuel _ (parentOf v) next _ out hnext h5 hd
                (List.mem_cons_self ..) h
              refine ⟨v, (number (parentOf v), next, w) :: dirs, top, pre, .up hrec hroot (isDirectory_eq _ ▸ hdir) hread hv e1, ?_, ?_, ?_, ?_⟩
              · rw [List.map_cons, List.nodup_cons]
                exact ⟨fun hm => e3 _ hm (List.mem_cons_self ..), e2⟩
              · intro n hn
                rw [List.map_cons] at hn
                rcases List.mem_cons.1 hn with rfl | hn
                · exact hin
                · exact fun hm => e3 n hn (List.mem_cons_of_mem _ hm)
              · rw [e4]; simp
              · rcases e5 with e5 | ⟨e5, e6⟩
                · exact .inl e5
                · refine .inr ⟨e5, ?_⟩
                  rcases e6 with e6 | e6
                  · left
                    simp only [List.map_cons, List.cons_append, List.mem_cons, List.mem_append] at e6 ⊢
                    rcases e6 with e6 | e6 | e6
                    · exact .inr (.inl e6)
                    · exact .inl e6
                    · exact .inr (.inr e6)
                  · exact .inr e6
            · rw [if_pos (by simpa using hd)] at h
              cases h
              exact single _ (.inr ⟨rfl, .inr (.inr ⟨h5, next, hnext, by rw [← isDirectory_eq]; simpa using hd⟩)⟩) rfl

/-- A climb fails only when the names of a directory on the way cannot be read. -/
theorem climbLoop_error {p : Parser} (hp : p.Loaded) : ∀ (fuel : Nat) (track : List Nat) (ref : Nat) (current : FileRecord)
    (components : List Str) (e : Exc), IsRecord p.file p.size (number ref) (sequence ref) current → number ref ≠ 5 →
    current.isDirectory = true → climbLoop p fuel track current components = some (.error e) →
    ∃ dirs top r, Chain p.file p.size ref dirs top ∧ IsRecord p.file p.size (number top) (sequence top) r ∧
      preferredFileName r = .error e ∧ (flagsOf r.base).testBit 1 = true
  | 0, _, _, _, _, _, _, _, _, h => by cases h
  | fuel + 1, track, ref, current, components, e, hrec, hroot, hdir, h => by
    unfold climbLoop at h
    cases hpn : preferredFileName current with
    | error e' => rw [hpn] at h; cases h; exact ⟨[], ref, current, .here _, hrec, hpn, isDirectory_eq _ ▸ hdir⟩
    | ok x =>
      obtain ⟨nm, rf⟩ := x
      obtain ⟨hread, v, hv, hx⟩ := preferredFileName_ok.1 hpn
      cases hx
      rw [hpn] at h
      dsimp only at h
      rw [decode_ref] at h
      dsimp only at h
      by_cases hin : number (parentOf v) ∈ track
      · rw [if_pos hin] at h; cases h
      · rw [if_neg hin] at h
        cases hg : p.getBaseRecord (number (parentOf v)) (some (sequence (parentOf v))) with
        | error e' =>
          rw [hg] at h
          dsimp only at h
          rw [if_pos (getBaseRecord_none hp hg).1] at h
          cases h
        | ok next =>
          have hnext := (getBaseRecord_some hp).1 hg
          rw [hg] at h
          dsimp only at h
          by_cases h5 : number (parentOf v) = fileNumberRoot
          · rw [if_pos h5] at h; cases h
          · rw [if_neg h5] at h
            by_cases hd : next.isDirectory = true
            · rw [if_neg (by simpa using hd)] at h
              obtain ⟨dirs, top, r, c1, c2, c3⟩ := climbLoop_error hp fuel _ (parentOf v) next _ e hnext h5 hd h
              exact ⟨_, top, r, .up hrec hroot (isDirectory_eq _ ▸ hdir) hread hv c1, c2, c3⟩
            · rw [if_pos (by simpa using hd)] at h; cases h

theorem isRecord_bound {file : Bytes} {size n s : Nat} {r : FileRecord} (hs : 0 < size) (h : IsRecord file size n s r) :
    n < file.length / size + 1 := by
  have h1 := h.1
  have : n * size ≤ file.length := by
    apply Decidable.byContradiction
    intro hlt
    have h2 := (getSegment_iff (p := ⟨file, size, []⟩) hs).2 h1
    unfold Parser.getSegment at h2
    rw [if_pos (show n * size > file.length by omega)] at h2
    cases h2
  have := (Nat.le_div_iff_mul_le hs).2 this
  omega

/-- A climb ends: the numbers seen are different and there are only so many records. -/
theorem climbLoop_ends {p : Parser} (hp : p.Loaded) : ∀ (fuel : Nat) (track : List Nat) (current : FileRecord) (components : List Str),
    track.Nodup → (∀ n ∈ track, n < p.file.length / p.size + 1) → p.file.length / p.size + 1 < fuel + track.length →
    climbLoop p fuel track current components ≠ none
  | 0, track, _, _, hnd, hb, hf => by
    have := nodup_bounded_length _ track hnd hb
    omega
  | fuel + 1, track, current, components, hnd, hb, hf => by
    have hs : 0 < p.size := by have := hp.size; omega
    unfold climbLoop
    cases hpn : preferredFileName current with
    | error e => simp
    | ok x =>
      dsimp only
      rw [decode_ref]
      dsimp only
      by_cases hin : number x.2 ∈ track
      · rw [if_pos hin]; simp
      · rw [if_neg hin]
        cases hg : p.getBaseRecord (number x.2) (some (sequence x.2)) with
        | error e => dsimp only; split <;> simp
        | ok next =>
          dsimp only
          by_cases h5 : number x.2 = fileNumberRoot
          · rw [if_pos h5]; simp
          · rw [if_neg h5]
            split
            · simp
            · apply climbLoop_ends hp fuel
              · exact List.nodup_cons.2 ⟨hin, hnd⟩
              · intro n hn
                rcases List.mem_cons.1 hn with rfl | hn
                · exact isRecord_bound hs ((getBaseRecord_some hp).1 hg)
                · exact hb n hn
              · rw [List.length_cons]; omega

theorem buildPath_ends {p : Parser} (hp : p.Loaded) (v : Bytes) : buildPath p (p.file.length / p.size + 2) v ≠ none := by
  have hs : 0 < p.size := by have := hp.size; omega
  unfold buildPath
  cases fileNameName v with
  | error e => simp
  | ok name =>
    cases fileNameParent v with
    | error e => simp
    | ok ref =>
      dsimp only
      rw [decode_ref]
      dsimp only
      split
      · simp
      · cases hg : p.getBaseRecord (number ref) (some (sequence ref)) with
        | error e => dsimp only; split <;> simp
        | ok parent =>
          dsimp only
          split
          · simp
          · have := climbLoop_ends hp (p.file.length / p.size + 2) [number ref] parent [name] (by simp) (by
              intro n hn
              rw [List.mem_singleton.1 hn]
              exact isRecord_bound hs ((getBaseRecord_some hp).1 hg)) (by simp)
            cases hc : climbLoop p (p.file.length / p.size + 2) [number ref] parent [name] with
            | none => exact absurd hc this
            | some x => cases x <;> simp

theorem buildPaths_ends {p : Parser} (hp : p.Loaded) : ∀ vs : List Bytes, buildPaths p (p.file.length / p.size + 2) vs ≠ none
  | [] => by simp [buildPaths]
  | v :: vs => by
    unfold buildPaths
    have h1 := buildPath_ends hp v
    cases hb : buildPath p (p.file.length / p.size + 2) v with
    | none => exact absurd hb h1
    | some x =>
      cases x with
      | error e => simp
      | ok path =>
        dsimp only
        have h2 := buildPaths_ends hp vs
        cases hbs : buildPaths p (p.file.length / p.size + 2) vs with
        | none => exact absurd hbs h2
        | some y => cases y <;> simp

/-- What the path of one file name is made of. -/
theorem buildPath_sound {p : Parser} (hp : p.Loaded) {fuel : Nat} {v : Bytes} {path : Str}
    (h : buildPath p fuel v = some (.ok path)) :
    ∃ dirs top pre, Chain p.file p.size (parentOf v) dirs top ∧ (dirs.map (·.1)).Nodup ∧
      path = pyJoin pathSeparator (pre :: (dirs.map (fun d => nameOf d.2.2)).reverse ++ [nameOf v]) ∧
      ((dirs = [] ∧ number top = 5 ∧ pre = []) ∨ ((dirs = [] → number top ≠ 5) ∧ Stop p.file p.size (dirs.map (·.1)) top pre)) := by
  unfold buildPath at h
  cases hn : fileNameName v with
  | error e => rw [hn] at h; cases h
  | ok name =>
    obtain ⟨-, rfl⟩ := fileNameName_ok.1 hn
    rw [hn] at h
    cases hpr : fileNameParent v with
    | error e => rw [hpr] at h; cases h
    | ok ref =>
      obtain ⟨-, rfl⟩ := fileNameParent_ok.1 hpr
      rw [hpr] at h
      dsimp only at h
      rw [decode_ref] at h
      dsimp only at h
      by_cases h5 : number (parentOf v) = fileNumberRoot
      · rw [if_pos h5] at h
        cases h
        exact ⟨[], parentOf v, [], .here _, by simp, rfl, .inl ⟨rfl, h5, rfl⟩⟩
      · rw [if_neg h5] at h
        cases hg : p.getBaseRecord (number (parentOf v)) (some (sequence (parentOf v))) with
        | error e =>
          rw [hg] at h
          dsimp only at h
          obtain ⟨h1, h2⟩ := getBaseRecord_none hp hg
          rw [if_pos h1] at h
          cases h
          exact ⟨[], parentOf v, unknownPathPlaceholder, .here _, by simp, rfl, .inr ⟨fun _ => h5, .inr ⟨rfl, .inr (.inl h2)⟩⟩⟩
        | ok parent =>
          have hpar := (getBaseRecord_some hp).1 hg
          rw [hg] at h
          dsimp only at h
          by_cases hd : parent.isDirectory = true
          · rw [if_neg (by simpa using hd)] at h
            cases hc : climbLoop p fuel [number (parentOf v)] parent [nameOf v] with
            | none => rw [hc] at h; cases h
            | some x =>
              cases x with
              | error e => rw [hc] at h; cases h
              | ok out =>
                rw [hc] at h
                cases h
                obtain ⟨w, dirs, top, pre, e1, e2, e3, e4, e5⟩ := climbLoop_sound hp fuel _ (parentOf v) parent _ out hpar h5 hd
                  (List.mem_singleton.2 rfl) hc
                refine ⟨(number (parentOf v), parent, w) :: dirs, top, pre, e1, ?_, ?_, .inr ⟨(fun h => by cases h), e5⟩⟩
                · rw [List.map_cons, List.nodup_cons]
                  exact ⟨fun hm => e3 _ hm (List.mem_singleton.2 rfl), e2⟩
                · rw [e4]; simp
          · rw [if_pos (by simpa using hd)] at h
            cases h
            exact ⟨[], parentOf v, unknownPathPlaceholder, .here _, by simp, rfl,
              .inr ⟨fun _ => h5, .inr ⟨rfl, .inr (.inr ⟨h5, parent, hpar, by rw [← isDirectory_eq]; simpa using hd⟩)⟩⟩⟩

theorem buildPath_error {p : Parser} (hp : p.Loaded) {fuel : Nat} {v : Bytes} {e : Exc} (hv : 66 ≤ v.length)
    (h : buildPath p fuel v = some (.error e)) :
    ∃ dirs top r, Chain p.file p.size (parentOf v) dirs top ∧ IsRecord p.file p.size (number top) (sequence top) r ∧
      preferredFileName r = .error e ∧ (flagsOf r.base).testBit 1 = true := by
  unfold buildPath at h
  rw [fileNameName_ok.2 ⟨by omega, rfl⟩, fileNameParent_ok.2 ⟨by omega, rfl⟩] at h
  dsimp only at h
  rw [decode_ref] at h
  dsimp only at h
  by_cases h5 : number (parentOf v) = fileNumberRoot
  · rw [if_pos h5] at h; cases h
  · rw [if_neg h5] at h
    cases hg : p.getBaseRecord (number (parentOf v)) (some (sequence (parentOf v))) with
    | error e' =>
      rw [hg] at h
      dsimp only at h
      rw [if_pos (getBaseRecord_none hp hg).1] at h
      cases h
    | ok parent =>
      rw [hg] at h
      dsimp only at h
      by_cases hd : parent.isDirectory = true
      · rw [if_neg (by simpa using hd)] at h
        cases hc : climbLoop p fuel [number (parentOf v)] parent [nameOf v] with
        | none => rw [hc] at h; cases h
        | some x =>
          cases x with
          | error e' =>
            rw [hc] at h; cases h
            exact climbLoop_error hp fuel _ (parentOf v) parent _ e ((getBaseRecord_some hp).1 hg) h5 hd hc
          | ok out => rw [hc] at h; cases h
      · rw [if_pos (by simpa using hd)] at h; cases h

theorem orderNames_ok (err : Option Exc) : ∀ (l : List AttributeRecord) (acc vs : List Bytes),
    orderNames err l acc = .ok vs ↔ err = none ∧ (∀ a ∈ l, ∀ n v, a ≠ .resident 0xA0 n v) ∧ (∀ v ∈ fileNames l, 66 ≤ v.length) ∧
      vs = ((fileNames l).filter isPreferred).reverse ++ acc ++ (fileNames l).filter fun v => !isPreferred v
  | [], acc, vs => by
    unfold orderNames
    cases err with
    | none => simp [fileNames]; exact eq_comm
    | some e => simp
  | a :: l, acc, vs => by
    unfold orderNames
    rcases fileNameValue_cases a with ⟨n, v, rfl, h⟩ | ⟨n, v, rfl, h⟩ | ⟨h1, h2, h⟩
    · rw [h, fileNames_cons_name]
      dsimp only
      have hnA : ∀ n' v', AttributeRecord.resident 0x30 n v ≠ .resident 0xA0 n' v' := fun _ _ hc => by cases hc
      constructor
      · intro hh
        cases hf : fileNameFlags v with
        | error e => rw [hf] at hh; cases hh
        | ok fl =>
          rw [hf] at hh
          dsimp only at hh
          obtain ⟨f1, rfl⟩ := fileNameFlags_ok.1 hf
          rw [preferredFlags_eq] at hh
          obtain ⟨i1, i2, i3, i4⟩ := (orderNames_ok err l _ _).1 hh
          refine ⟨i1, ?_, ?_, ?_⟩
          · intro a ha
            rcases List.mem_cons.1 ha with rfl | ha
            · exact hnA
            · exact i2 a ha
          · intro w hw
            rcases List.mem_cons.1 hw with rfl | hw
            · exact f1
            · exact i3 w hw
          · rw [i4]
            cases hpv : isPreferred v <;> simp [hpv]
      · rintro ⟨i1, i2, i3, rfl⟩
        have hv := i3 v (List.mem_cons_self ..)
        rw [fileNameFlags_ok.2 ⟨hv, rfl⟩]
        dsimp only
        rw [preferredFlags_eq, orderNames_ok err l]
        refine ⟨i1, fun a ha => i2 a (List.mem_cons_of_mem _ ha), fun w hw => i3 w (List.mem_cons_of_mem _ hw), ?_⟩
        cases hpv : isPreferred v <;> simp [hpv]
    · rw [h]
      constructor
      · intro hh; cases hh
      · rintro ⟨-, i2, -⟩
        exact absurd rfl (i2 _ (List.mem_cons_self ..) n v)
    · rw [h, fileNames_cons_other h2]
      dsimp only
      rw [orderNames_ok err l]
      constructor
      · rintro ⟨i1, i2, i3, i4⟩
        refine ⟨i1, ?_, i3, i4⟩
        intro b hb
        rcases List.mem_cons.1 hb with rfl | hb
        · exact h1
        · exact i2 b hb
      · rintro ⟨i1, i2, i3, i4⟩
        exact ⟨i1, fun b hb => i2 b (List.mem_cons_of_mem _ hb), i3, i4⟩

theorem buildPaths_ok {p : Parser} {fuel : Nat} : ∀ {vs : List Bytes} {out : List (Str × Bytes)},
    buildPaths p fuel vs = some (.ok out) → out.map (·.2) = vs ∧ ∀ x ∈ out, buildPath p fuel x.2 = some (.ok x.1)
  | [], out, h => by
    unfold buildPaths at h; cases h; simp
  | v :: vs, out, h => by
    unfold buildPaths at h
    cases hb : buildPath p fuel v with
    | none => rw [hb] at h; cases h
    | some x =>
      cases x with
      | error e => rw [hb] at h; cases h
      | ok path =>
        rw [hb] at h
        dsimp only at h
        cases hbs : buildPaths p fuel vs with
        | none => rw [hbs] at h; cases h
        | some y =>
          cases y with
          | error e => rw [hbs] at h; cases h
          | ok l =>
            rw [hbs] at h
            cases h
            obtain ⟨i1, i2⟩ := buildPaths_ok hbs
            refine ⟨by rw [List.map_cons, i1], ?_⟩
            intro x hx
            rcases List.mem_cons.1 hx with rfl | hx
            · exact hb
            · exact i2 x hx

theorem buildPaths_error {p : Parser} {fuel : Nat} {e : Exc} : ∀ {vs : List Bytes},
    buildPaths p fuel vs = some (.error e) → ∃ v ∈ vs, buildPath p fuel v = some (.error e)
  | [], h => by unfold buildPaths at h; cases h
  | v :: vs, h => by
    unfold buildPaths at h
    cases hb : buildPath p fuel v with
    | none => rw [hb] at h; cases h
    | some x =>
      cases x with
      | error e' => rw [hb] at h; cases h; exact ⟨v, List.mem_cons_self .., hb⟩
      | ok path =>
        rw [hb] at h
        dsimp only at h
        cases hbs : buildPaths p fuel vs with
        | none => rw [hbs] at h; cases h
        | some y =>
          cases y with
          | error e' =>
            rw [hbs] at h; cases h
            obtain ⟨w, h1, h2⟩ := buildPaths_error hbs
            exact ⟨w, List.mem_cons_of_mem _ h1, h2⟩
          | ok l => rw [hbs] at h; cases h

/-! ### Lookup by path -/

theorem compareNameLoop_ok (eq : Str → Str → Bool) (name : Str) (err : Option Exc) : ∀ (l : List AttributeRecord) (x : Option Nat),
    compareNameLoop eq name err l = .ok x → x = ((fileNames l).find? fun v => eq (nameOf v) name).map parentOf
  | [], x, h => by
    unfold compareNameLoop at h
    cases err with
    | none => cases h; rfl
    | some e => cases h
  | a :: l, x, h => by
    unfold compareNameLoop at h
    rcases fileNameValue_cases a with ⟨n, v, rfl, hv⟩ | ⟨n, v, rfl, hv⟩ | ⟨h1, h2, hv⟩
    · rw [hv] at h
      rw [fileNames_cons_name]
      dsimp only at h
      cases hn : fileNameName v with
      | error e => rw [hn] at h; cases h
      | ok nm =>
        obtain ⟨-, rfl⟩ := fileNameName_ok.1 hn
        rw [hn] at h
        dsimp only at h
        by_cases he : eq (nameOf v) name = true
        · rw [if_pos he] at h
          rw [List.find?_cons_of_pos (p := fun v => eq (nameOf v) name) he]
          cases hp : fileNameParent v with
          | error e => rw [hp] at h; cases h
          | ok pr =>
            rw [hp] at h
            cases h
            obtain ⟨-, rfl⟩ := fileNameParent_ok.1 hp
            rfl
        · rw [if_neg he] at h
          rw [List.find?_cons_of_neg (p := fun v => eq (nameOf v) name) he]
          exact compareNameLoop_ok eq name err l x h
    · rw [hv] at h; cases h
    · rw [hv] at h
      rw [fileNames_cons_other h2]
      exact compareNameLoop_ok eq name err l x h

theorem compareName_ok {eq : Str → Str → Bool} {name : Str} {r : FileRecord} {x : Option Nat} (h : compareName eq name r = .ok x) :
    x = ((fileNames r.attributes.items).find? fun v => eq (nameOf v) name).map parentOf :=
  compareNameLoop_ok _ _ _ _ _ h

/-- The candidates are exactly the records with the name. -/
theorem candidatesLoop_ok {p : Parser} (hp : p.Loaded) (eq : Str → Str → Bool) (last : Str) (must : Bool) (i : Nat)
    (cs : List (Nat × FileRecord)) (h : candidatesLoop p eq last must i = .ok cs) :
    ∀ x, x ∈ cs ↔ ∃ k s v, i ≤ k ∧ k * p.size < p.file.length ∧ IsRecord p.file p.size k s x.2 ∧ x.2.base.isInUse = true ∧
      (must = true → x.2.isDirectory = true) ∧ FirstMatch eq x.2 last v ∧ x.1 = parentOf v := by
  have hs : 0 < p.size := by have := hp.size; omega
  unfold candidatesLoop at h
  by_cases hlt : i * p.size < p.file.length ∧ 0 < p.size
  · rw [if_pos hlt] at h
    have hdec : p.file.length - (i + 1) * p.size < p.file.length - i * p.size := by rw [Nat.add_mul]; omega
    have shift : ∀ (Q : Nat → Prop), (¬ Q i) → ((∃ k, i ≤ k ∧ Q k) ↔ ∃ k, i + 1 ≤ k ∧ Q k) := by
      intro Q hQ
      constructor
      · rintro ⟨k, h1, h2⟩
        refine ⟨k, ?_, h2⟩
        by_cases he : k = i
        · subst he; exact absurd h2 hQ
        · omega
      · rintro ⟨k, h1, h2⟩; exact ⟨k, by omega, h2⟩
    cases hg : p.getBaseRecord i none with
    | error e =>
      rw [hg] at h
      dsimp only at h
      rw [if_pos (getBaseRecord_error hp hg)] at h
      intro x
      rw [candidatesLoop_ok hp eq last must (i + 1) cs h x]
      constructor
      · rintro ⟨k, s, v, h1, h2⟩; exact ⟨k, s, v, by omega, h2⟩
      · rintro ⟨k, s, v, h1, h2⟩
        refine ⟨k, s, v, ?_, h2⟩
        by_cases he : k = i
        · subst he
          have := (getBaseRecord_iff hp (expected := none)).2 ⟨s, h2.2.1, .inl rfl⟩
          rw [hg] at this; cases this
        · omega
    | ok r =>
      rw [hg] at h
      dsimp only at h
      obtain ⟨s0, hr, -⟩ := (getBaseRecord_iff hp).1 hg
      have uniq : ∀ s x, IsRecord p.file p.size i s x → x = r := by
        intro s x hx
        have := (getBaseRecord_iff hp (expected := none)).2 ⟨s, hx, .inl rfl⟩
        rw [hg] at this; cases this; rfl
      cases hc : compareName eq last r with
      | error e => rw [hc] at h; cases h
      | ok parent =>
        rw [hc] at h
        dsimp only at h
        have hpar := compareName_ok hc
        cases hrec : candidatesLoop p eq last must (i + 1) with
        | error e => rw [hrec] at h; cases h
        | ok cs' =>
          rw [hrec] at h
          dsimp only at h
          have ih := candidatesLoop_ok hp eq last must (i + 1) cs' hrec
          have same : (¬ ∃ s v x1, x1 = parentOf v ∧ IsRecord p.file p.size i s r ∧ r.base.isInUse = true ∧
              (must = true → r.isDirectory = true) ∧ FirstMatch eq r last v) → ∀ x, x ∈ cs' ↔ ∃ k s v, i ≤ k ∧ k * p.size < p.file.length ∧
              IsRecord p.file p.size k s x.2 ∧ x.2.base.isInUse = true ∧
              (must = true → x.2.isDirectory = true) ∧ FirstMatch eq x.2 last v ∧ x.1 = parentOf v := by
            intro hnot x
            rw [ih x]
            constructor
            · rintro ⟨k, s, v, h1, h2⟩; exact ⟨k, s, v, by omega, h2⟩
            · rintro ⟨k, s, v, h1, h2, h3, h4, h5, h6, h7⟩
              refine ⟨k, s, v, ?_, h2, h3, h4, h5, h6, h7⟩
              by_cases he : k = i
              · subst he
                have := uniq s _ h3
                rw [this] at h3 h4 h5 h6
                exact absurd ⟨s, v, _, h7, h3, h4, h5, h6⟩ hnot
              · omega
          cases parent with
          | none =>
            dsimp only at h
            cases h
            apply same
            rintro ⟨s, v, x1, -, -, -, -, hf⟩
            unfold FirstMatch at hf
            rw [hf] at hpar; cases hpar
          | some pr =>
            dsimp only at h
            by_cases hcond : r.base.isInUse = true ∧ (must = true → r.isDirectory = true)
            · rw [if_pos hcond] at h
              cases h
              have hf : ∃ v, FirstMatch eq r last v ∧ pr = parentOf v := by
                unfold FirstMatch
                cases hfi : (fileNames r.attributes.items).find? (fun v => eq (nameOf v) last) with
                | none => rw [hfi] at hpar; cases hpar
                | some v => rw [hfi] at hpar; cases hpar; exact ⟨v, rfl, rfl⟩
              obtain ⟨v, hv, hpv⟩ := hf
              intro x
              rw [List.mem_cons, ih x]
              constructor
              · rintro (rfl | ⟨k, s, v, h1, h2⟩)
                · exact ⟨i, s0, v, Nat.le_refl _, hlt.1, hr, hcond.1, hcond.2, hv, hpv⟩
                · exact ⟨k, s, v, by omega, h2⟩
              · rintro ⟨k, s, w, h1, h2, h3, h4, h5, h6, h7⟩
                by_cases he : k = i
                · subst he
                  left
                  have hx2 := uniq s _ h3
                  rw [hx2] at h6
                  unfold FirstMatch at h6 hv
                  rw [hv] at h6
                  cases h6
                  rw [← hpv] at h7
                  exact Prod.ext h7 hx2
                · right; exact ⟨k, s, w, by omega, h2, h3, h4, h5, h6, h7⟩
            · rw [if_neg hcond] at h
              cases h
              apply same
              rintro ⟨s, v, x1, -, -, h4, h5, -⟩
              exact hcond ⟨h4, h5⟩
  · rw [if_neg hlt] at h
    cases h
    intro x
    constructor
    · intro hx; cases hx
    · rintro ⟨k, s, v, h1, h2, -⟩
      have : i * p.size ≤ k * p.size := Nat.mul_le_mul_right _ h1
      omega
termination_by p.file.length - i * p.size

theorem matchParents_ok {p : Parser} (hp : p.Loaded) (eq : Str → Str → Bool) : ∀ (components : List Str) (ref : Nat) (b : Bool),
    matchParents p eq components ref = .ok b → (b = true ↔ MatchesUp p.file p.size eq ref components)
  | components, ref, b, h => by
    unfold matchParents at h
    dsimp only at h
    rw [decode_ref] at h
    dsimp only at h
    by_cases h5 : number ref = fileNumberRoot
    · rw [if_pos h5] at h
      cases h
      cases components with
      | nil => exact ⟨fun _ => .root h5, fun _ => rfl⟩
      | cons c rest =>
        constructor
        · intro h; cases h
        · intro h
          cases h with
          | up _ hroot _ _ => exact absurd h5 hroot
    · rw [if_neg h5] at h
      cases hg : p.getBaseRecord (number ref) (some (sequence ref)) with
      | error e =>
        rw [hg] at h
        dsimp only at h
        obtain ⟨h1, h2⟩ := getBaseRecord_none hp hg
        rw [if_pos h1] at h
        cases h
        constructor
        · intro h; cases h
        · intro h
          cases h with
          | root h => exact absurd h h5
          | up hrec _ _ _ => exact absurd ⟨_, hrec⟩ h2
      | ok r =>
        have hr := (getBaseRecord_some hp).1 hg
        rw [hg] at h
        cases components with
        | nil =>
          cases h
          constructor
          · intro h; cases h
          · intro h
            cases h with
            | root h => exact absurd h h5
        | cons c rest =>
          dsimp only at h
          have uniq : ∀ x, IsRecord p.file p.size (number ref) (sequence ref) x → x = r := by
            intro x hx
            have := (getBaseRecord_some hp).2 hx
            rw [hg] at this; cases this; rfl
          cases hc : compareName eq c r with
          | error e => rw [hc] at h; cases h
          | ok x =>
            have hx := compareName_ok hc
            rw [hc] at h
            cases x with
            | none =>
              cases h
              constructor
              · intro h; cases h
              · intro h
                cases h with
                | up hrec _ hname _ =>
                  rw [uniq _ hrec] at hname
                  unfold FirstMatch at hname
                  rw [hname] at hx; cases hx
            | some ref' =>
              dsimp only at h
              have ih := matchParents_ok hp eq rest ref' b h
              rw [ih]
              have hf : ∃ v, FirstMatch eq r c v ∧ ref' = parentOf v := by
                unfold FirstMatch
                cases hfi : (fileNames r.attributes.items).find? (fun v => eq (nameOf v) c) with
                | none => rw [hfi] at hx; cases hx
                | some v => rw [hfi] at hx; cases hx; exact ⟨v, rfl, rfl⟩
              obtain ⟨v, hv, rfl⟩ := hf
              constructor
              · exact fun hm => .up hr h5 hv hm
              · intro hm
                cases hm with
                | up hrec _ hname hrest =>
                  rw [uniq _ hrec] at hname
                  unfold FirstMatch at hname hv
                  rw [hv] at hname
                  cases hname
                  exact hrest

theorem firstMatch_some {p : Parser} (hp : p.Loaded) {eq : Str → Str → Bool} {components : List Str} : ∀ {cs : List (Nat × FileRecord)} {r : FileRecord},
    firstMatch p eq components cs = .ok (some r) → ∃ ref, (ref, r) ∈ cs ∧ MatchesUp p.file p.size eq ref components
  | [], r, h => by unfold firstMatch at h; cases h
  | (ref, r0) :: cs, r, h => by
    unfold firstMatch at h
    cases hm : matchParents p eq components ref with
    | error e => rw [hm] at h; cases h
    | ok b =>
      rw [hm] at h
      cases b with
      | true => cases h; exact ⟨ref, List.mem_cons_self .., (matchParents_ok hp eq _ _ _ hm).1 rfl⟩
      | false =>
        obtain ⟨ref', h1, h2⟩ := firstMatch_some hp h
        exact ⟨ref', List.mem_cons_of_mem _ h1, h2⟩

theorem firstMatch_none {p : Parser} (hp : p.Loaded) {eq : Str → Str → Bool} {components : List Str} : ∀ {cs : List (Nat × FileRecord)},
    firstMatch p eq components cs = .ok none → ∀ x ∈ cs, ¬ MatchesUp p.file p.size eq x.1 components
  | [], _ => by intro x hx; cases hx
  | (ref, r0) :: cs, h => by
    unfold firstMatch at h
    cases hm : matchParents p eq components ref with
    | error e => rw [hm] at h; cases h
    | ok b =>
      rw [hm] at h
      cases b with
      | true => cases h
      | false =>
        intro x hx
        rcases List.mem_cons.1 hx with rfl | hx
        · intro hmu
          have := (matchParents_ok hp eq _ _ _ hm).2 hmu
          cases this
        · exact firstMatch_none hp h x hx

theorem splitPath_ne_nil : ∀ s : Str, splitPath s ≠ []
  | [] => by simp [splitPath]
  | c :: s => by
    unfold splitPath
    split
    · simp
    · split <;> simp

/-- Splitting a path and joining it again. -/
theorem pyJoin_splitPath : ∀ s : Str, pyJoin pathSeparator (splitPath s) = s
  | [] => rfl
  | c :: s => by
    have ih := pyJoin_splitPath s
    have hne := splitPath_ne_nil s
    unfold splitPath
    split
    · next h =>
      cases hsp : splitPath s with
      | nil => exact absurd hsp hne
      | cons x xs =>
        rw [hsp] at ih
        show [] ++ pathSeparator ++ pyJoin pathSeparator (x :: xs) = c :: s
        rw [ih, h]; rfl
    · cases hsp : splitPath s with
      | nil => exact absurd hsp hne
      | cons x xs =>
        rw [hsp] at ih
        dsimp only
        cases xs with
        | nil => show c :: x = c :: s; congr 1
        | cons y ys =>
          show (c :: x) ++ pathSeparator ++ pyJoin pathSeparator (y :: ys) = c :: s
          have : x ++ pathSeparator ++ pyJoin pathSeparator (y :: ys) = s := ih
          rw [← this]; simp

/-- The parts have no separator in them. -/
theorem splitPath_no_sep : ∀ (s : Str), ∀ x ∈ splitPath s, 0x2F ∉ x
  | [] => by simp [splitPath]
  | c :: s => by
    have ih := splitPath_no_sep s
    unfold splitPath
    split
    · intro x hx
      rcases List.mem_cons.1 hx with rfl | hx
      · simp
      · exact ih x hx
    · next hc =>
      cases hsp : splitPath s with
      | nil => exact absurd hsp (splitPath_ne_nil s)
      | cons y ys =>
        rw [hsp] at ih
        intro x hx
        rcases List.mem_cons.1 hx with rfl | hx
        · intro hm
          rcases List.mem_cons.1 hm with hm | hm
          · exact hc hm.symm
          · exact ih y (List.mem_cons_self ..) hm
        · exact ih x (List.mem_cons_of_mem _ hx)

end Verif.MFT
