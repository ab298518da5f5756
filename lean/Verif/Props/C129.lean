/-
C129: several selections of shadow copies with one parser.
-/
import Verif.Model.ShadowCopy.Object
import Verif.Props.C42_C43
import Verif.Props.C105
import Verif.Props.C127
namespace Verif.Props.Reselect
open Verif.ShadowCopy Verif.Spec.Shadow

/-! ### The object and the function -/

/-- A parser with a selected shadow copy. -/
def levelOf (s : Store) : Level :=
  ⟨true, some s.currentSize, some s.bitmap, some s.previousBitmap, some s.diffArea, some s.nullTargets, some s.returnNull⟩

theorem levelOf_store (s : Store) : (levelOf s).store = s := rfl

theorem selectLevel_spec (img : Image) (o : Opened) (fuel depth : Nat) : ∀ (key : Key) (l : Level) (next : List Level),
    (selectStores img o fuel depth key = none ∧ selectLevel img o fuel depth key l next = none) ∨
    (∃ s rest, selectStores img o fuel depth key = some (.ok (s :: rest)) ∧
      selectLevel img o fuel depth key l next = some (.ok (), levelOf s, rest.map levelOf)) ∨
    (∃ e l' next', selectStores img o fuel depth key = some (.error e) ∧ selectLevel img o fuel depth key l next = some (.error e, l', next')) := by
  induction depth with
  | zero => intro key l next; exact .inl ⟨rfl, rfl⟩
  | succ depth ih =>
    intro key l next
    rw [selectStores, selectLevel]
    unfold readStore
    cases guidOfKey o key with
    | error e => exact .inr (.inr ⟨e, l, next, rfl, rfl⟩)
    | ok g =>
      dsimp only
      cases pickItems o g with
      | error e => exact .inr (.inr ⟨e, l, next, rfl, rfl⟩)
      | ok p =>
        obtain ⟨cbi2, cbi3⟩ := p
        dsimp only
        cases readBitmap img.store (volumeSize cbi2) (bitmapOffset cbi3) fuel with
        | none => exact .inl ⟨rfl, rfl⟩
        | some r =>
        cases r with
        | error e => exact .inr (.inr ⟨e, _, _, rfl, rfl⟩)
        | ok bm =>
        dsimp only
        cases readBitmap img.store (volumeSize cbi2) (previousBitmapOffset cbi3) fuel with
        | none => exact .inl ⟨rfl, rfl⟩
        | some r =>
        cases r with
        | error e => exact .inr (.inr ⟨e, _, _, rfl, rfl⟩)
        | ok pbm =>
        dsimp only
        cases readLocations img.store (locationOffset cbi3) fuel with
        | none => exact .inl ⟨rfl, rfl⟩
        | some r =>
        cases r with
        | error e => exact .inr (.inr ⟨e, _, _, rfl, rfl⟩)
        | ok _ =>
        dsimp only
        cases readApplication img.store (applicationOffset cbi3) with
        | error e => exact .inr (.inr ⟨e, _, _, rfl, rfl⟩)
        | ok _ =>
        dsimp only
        cases readDiffArea img.store (diffAreaOffset cbi3) fuel with
        | none => exact .inl ⟨rfl, rfl⟩
        | some r =>
        cases r with
        | error e => exact .inr (.inr ⟨e, _, _, rfl, rfl⟩)
        | ok da =>
        dsimp only
        rcases ih (.position (stackPosition cbi2 + 1)) .fresh [] with ⟨h1, h2⟩ | ⟨s, rest, h1, h2⟩ | ⟨e, l', next', h1, h2⟩
        · rw [h1, h2]; exact .inl ⟨rfl, rfl⟩
        · rw [h1, h2]; exact .inr (.inl ⟨_, _, rfl, rfl⟩)
        · rw [h1, h2]
          dsimp only
          by_cases he : e = .ShadowCopyNotFoundException
          · rw [if_pos he, if_pos he]; exact .inr (.inl ⟨_, _, rfl, rfl⟩)
          · rw [if_neg he, if_neg he]; exact .inr (.inr ⟨e, _, _, rfl, rfl⟩)

/-- A parser, after it has selected. -/
def parserOf (s : Store) (newer : List Store) (offset : Nat) : Parser := ⟨levelOf s, newer.map levelOf, offset⟩

theorem selectShadow_spec (img : Image) (o : Opened) (fuel : Nat) (ho : openVolume img fuel = some (.ok o)) (key : Key) (p : Parser) :
    (select img fuel key = none ∧ selectShadow img o fuel key p = none) ∨
    (∃ s newer, select img fuel key = some (.ok (s :: newer)) ∧ selectShadow img o fuel key p = some (.ok (), parserOf s newer 0)) ∨
    (∃ e p', select img fuel key = some (.error e) ∧ selectShadow img o fuel key p = some (.error e, p')) := by
  unfold select selectShadow
  rw [ho]
  dsimp only
  by_cases hu : o.useSecondVolume = true ∧ img.storage = none
  · rw [if_pos hu, if_pos hu]; exact .inr (.inr ⟨_, p, rfl, rfl⟩)
  · rw [if_neg hu, if_neg hu]
    rcases selectLevel_spec img o fuel fuel key p.level p.next with ⟨h1, h2⟩ | ⟨s, rest, h1, h2⟩ | ⟨e, l', next', h1, h2⟩
    · rw [h1, h2]; exact .inl ⟨rfl, rfl⟩
    · rw [h1, h2]; exact .inr (.inl ⟨s, rest, rfl, rfl⟩)
    · rw [h1, h2]; exact .inr (.inr ⟨e, _, rfl, rfl⟩)

/-! ### Reading -/

theorem switchAlong_levels (offset : Nat) (next : List Store) : switchAlong offset (next.map levelOf) =
    .ok (if next.any (fun s => (s.entriesAt offset).any (fun e => decide (e.flags &&& 2 = 0))) then 1 else 0) := by
  induction next with
  | nil => rfl
  | cons s next ih =>
    rw [List.map_cons, switchAlong]
    show (if (s.entriesAt offset).any (fun e => decide (e.flags &&& 2 = 0)) = true then Except.ok 1 else switchAlong offset (next.map levelOf)) = _
    rw [List.any_cons]
    cases h : (s.entriesAt offset).any (fun e => decide (e.flags &&& 2 = 0)) with
    | true => rfl
    | false => rw [if_neg (by simp), ih, Bool.false_or]

theorem switchOf_levels (offset : Nat) (next : List Store) : switchOf (next.map levelOf) offset = .ok (switchMode next offset) := by
  cases next with
  | nil => rfl
  | cons s next => exact switchAlong_levels offset (s :: next)

theorem translateLevels_levels (vs : Option Nat) : ∀ (stores : List Store) (offset : Nat) (ig f : Bool),
    translateLevels vs (stores.map levelOf) offset ig f = translate vs stores offset ig f := by
  intro stores
  induction stores with
  | nil => intro offset ig f; rfl
  | cons s next ih =>
    intro offset ig f
    rw [List.map_cons, translateLevels, translate, translateIn, switchOf_levels, levelOf_store, if_pos (by rfl)]
    congr 1
    funext o f
    cases next with
    | nil => rfl
    | cons n next => exact ih o true f

theorem block_levels (img : Image) (s : Store) (newer : List Store) (offset : Nat) (fill : Bool) :
    (parserOf s newer offset).block img fill = readBlockFill img (s :: newer) fill := by
  funext off
  unfold Parser.block readBlockFill
  rw [show (parserOf s newer offset).level :: (parserOf s newer offset).next = (s :: newer).map levelOf from rfl, translateLevels_levels]
  rfl

theorem read_levels (img : Image) (s : Store) (newer : List Store) (offset : Nat) (fill : Bool) (n : Option Int) :
    (parserOf s newer offset).read img fill n =
      ((readFill img (s :: newer) fill offset n).1, parserOf s newer (readFill img (s :: newer) fill offset n).2) := by
  unfold Parser.read readFill
  rw [block_levels, show (parserOf s newer offset).level.selected = true from rfl, show (parserOf s newer offset).level.store = s from rfl,
    show (parserOf s newer offset).offset = offset from rfl]
  by_cases hf : fill = true ∧ img.storage.isSome = true
  · rw [if_pos hf, if_pos hf]
  rw [if_neg hf, if_neg hf, if_pos rfl]
  dsimp only
  by_cases hn : readSize (virtualSize img s) offset n ≤ 0 ∨ offset ≥ virtualSize img s
  · rw [if_pos hn, if_pos hn]
  rw [if_neg hn, if_neg hn]
  cases readBlockFill img (s :: newer) fill (offset / 0x4000 * 0x4000) <;> rfl

theorem seek_levels (img : Image) (s : Store) (newer : List Store) (offset : Nat) (n w : Int) :
    (parserOf s newer offset).seek img n w =
      match ShadowCopy.seek img s offset n w with
      | .ok m => (.ok m, parserOf s newer m)
      | .error e => (.error e, parserOf s newer offset) := rfl

/-! ### C129 -/

/-- C129: a parser with a selected shadow copy is read as C41-C43 and C105 say, whatever it was before: the selection ends as that of a volume
that was just opened does, the position is 0, and from any position that a later seek or read leads to, `read` and `seek` are those of the
shadow copy. -/
theorem C129_selected (img : Image) (o : Opened) (fuel : Nat) (ho : openVolume img fuel = some (.ok o)) (key : Key) (stores : List Store)
    (h : select img fuel key = some (.ok stores)) (p : Parser) :
    ∃ q : Nat → Parser, selectShadow img o fuel key p = some (.ok (), q 0) ∧ ∀ pos, (q pos).tell = .ok pos ∧
      (∀ fill n, (q pos).read img fill n = ((readFill img stores fill pos n).1, q (readFill img stores fill pos n).2)) ∧
      (∀ n, (q pos).read img false n = ((ShadowCopy.read img stores pos n).1, q (ShadowCopy.read img stores pos n).2)) ∧
      (∀ s newer off whence, stores = s :: newer → (q pos).seek img off whence =
        match ShadowCopy.seek img s pos off whence with
        | .ok m => (.ok m, q m)
        | .error e => (.error e, q pos)) := by
  rcases selectShadow_spec img o fuel ho key p with ⟨h1, -⟩ | ⟨s, newer, h1, h2⟩ | ⟨e, p', h1, -⟩
  · rw [h1] at h; cases h
  · rw [h1] at h
    cases h
    refine ⟨parserOf s newer, h2, fun pos => ⟨rfl, fun fill n => read_levels .., fun n => ?_, ?_⟩⟩
    · rw [read_levels, Mount.readFill_false]
    · intro s' newer' off whence hs
      cases hs
      rfl
  · rw [h1] at h; cases h

/-- C129: the answer to a selection, and the parser after it if it succeeds, do not depend on the parser before it. -/
theorem select_any (img : Image) (o : Opened) (fuel : Nat) (ho : openVolume img fuel = some (.ok o)) (key : Key) (p q p' : Parser) (a : Answer)
    (h : call img o fuel p (.select key) = some (a, p')) :
    (a = .nothing ∧ call img o fuel q (.select key) = some (a, p')) ∨ (∃ e q', a = .raised e ∧ call img o fuel q (.select key) = some (a, q')) := by
  unfold call at h ⊢
  dsimp only at h ⊢
  rcases selectShadow_spec img o fuel ho key p with ⟨h1, h2⟩ | ⟨s, newer, h1, h2⟩ | ⟨e, x, h1, h2⟩ <;>
  rcases selectShadow_spec img o fuel ho key q with ⟨g1, g2⟩ | ⟨s', newer', g1, g2⟩ | ⟨e', y, g1, g2⟩ <;>
  rw [h1] at g1 <;> cases g1 <;> rw [h2] at h <;> rw [g2] <;> cases h
  · exact .inl ⟨rfl, rfl⟩
  · exact .inr ⟨_, y, rfl, rfl⟩

theorem calls_append (img : Image) (o : Opened) (fuel : Nat) : ∀ (l l' : List Call) (p : Parser), calls img o fuel p (l ++ l') =
    match calls img o fuel p l with
    | none => none
    | some (as, p) =>
      match calls img o fuel p l' with
      | none => none
      | some (bs, p) => some (as ++ bs, p) := by
  intro l
  induction l with
  | nil =>
    intro l' p
    rw [List.nil_append, calls]
    dsimp only
    cases calls img o fuel p l' <;> rfl
  | cons c l ih =>
    intro l' p
    rw [List.cons_append, calls, calls]
    cases call img o fuel p c with
    | none => rfl
    | some r =>
      obtain ⟨a, q⟩ := r
      dsimp only
      rw [ih]
      cases calls img o fuel q l with
      | none => rfl
      | some r =>
        obtain ⟨as, q'⟩ := r
        dsimp only
        cases calls img o fuel q' l' <;> rfl

/-- C129: after a selection that succeeds, nothing that was called before matters: without it, the same calls get the same answers. -/
theorem C129_history (img : Image) (o : Opened) (fuel : Nat) (ho : openVolume img fuel = some (.ok o)) (before later : List Call) (key : Key)
    (as bs : List Answer) (p : Parser) (hl : as.length = before.length)
    (h : calls img o fuel .fresh (before ++ .select key :: later) = some (as ++ .nothing :: bs, p)) :
    calls img o fuel .fresh (.select key :: later) = some (.nothing :: bs, p) := by
  rw [calls_append] at h
  cases h1 : calls img o fuel .fresh before with
  | none => rw [h1] at h; cases h
  | some r =>
    obtain ⟨as', q⟩ := r
    have hlen : as'.length = before.length := by
      clear h hl
      have : ∀ (l : List Call) (p : Parser) (as : List Answer) (q : Parser), calls img o fuel p l = some (as, q) → as.length = l.length := by
        intro l
        induction l with
        | nil => intro p as q h; cases h; rfl
        | cons c l ih =>
          intro p as q h
          rw [calls] at h
          split at h
          · cases h
          · split at h
            · cases h
            · rename_i hc
              cases h
              rw [List.length_cons, List.length_cons, ih _ _ _ hc]
      exact this _ _ _ _ h1
    rw [h1] at h
    dsimp only at h
    split at h
    · cases h
    · rename_i bs' p' h2
      injection h with h
      injection h with h hp
      subst hp
      have hb : bs' = .nothing :: bs := List.append_inj_right h (by omega)
      subst hb
      rw [calls] at h2 ⊢
      split at h2
      · cases h2
      · rename_i a q' hc
        split at h2
        · cases h2
        · rename_i bs'' p'' hc2
          cases h2
          rcases select_any img o fuel ho key q .fresh q' .nothing hc with ⟨-, h3⟩ | ⟨e, _, h3, -⟩
          · rw [h3]
            dsimp only
            rw [hc2]
          · cases h3

/-- C129: the answer to a selection, whether it succeeds or what it raises, does not depend on what was called before. -/
theorem C129_answer (img : Image) (o : Opened) (fuel : Nat) (ho : openVolume img fuel = some (.ok o)) (key : Key) (p q p' : Parser) (a : Answer)
    (h : call img o fuel p (.select key) = some (a, p')) : ∃ q', call img o fuel q (.select key) = some (a, q') := by
  rcases select_any img o fuel ho key p q p' a h with ⟨-, h⟩ | ⟨_, q', -, h⟩
  · exact ⟨_, h⟩
  · exact ⟨q', h⟩

/-! ### Failures -/

theorem chain_not_missing {α} (vol : Bytes × Nat) (k : Kind) (f : Bytes → Except Exc α) (hf : ∀ b e, f b = .error e → e ≠ .ShadowCopyNotFoundException)
    (fuel offset : Nat) (e : Exc) (h : chain vol k f fuel offset = some (.error e)) : e ≠ .ShadowCopyNotFoundException := by
  induction fuel generalizing offset with
  | zero =>
    rw [chain] at h
    split at h <;> cases h
  | succ fuel ih =>
    rw [chain] at h
    split at h
    · cases h
    split at h
    · rename_i hr
      cases h
      unfold seekRead at hr
      split at hr <;> cases hr
      decide
    · split at h
      · rename_i hb
        cases h
        unfold block at hb
        split at hb
        · cases hb; cases k <;> decide
        split at hb
        · cases hb; decide
        split at hb
        · cases hb; cases k <;> decide
        split at hb
        · cases hb; cases k <;> decide
        · cases hb
      · split at h
        · cases h
        · split at h
          · rename_i hx
            cases h
            exact hf _ _ hx
          · split at h
            · cases h
            · rename_i hc
              cases h
              exact ih _ hc
            · cases h

theorem readBitmap_not_missing {vol : Bytes × Nat} {size offset fuel : Nat} {e : Exc} (h : readBitmap vol size offset fuel = some (.error e)) :
    e ≠ .ShadowCopyNotFoundException := by
  unfold readBitmap at h
  dsimp only at h
  split at h
  · cases h
  · rename_i hc
    cases h
    exact chain_not_missing _ _ _ (fun _ _ h => by cases h) _ _ _ hc
  · cases h

theorem locationLoop_not_missing (b : Bytes) (off : Nat) (e : Exc) (h : locationLoop b off = .error e) : e ≠ .ShadowCopyNotFoundException := by
  fun_induction locationLoop b off with
  | case1 => cases h
  | case2 => cases h; decide
  | case3 => rename_i hx ih; cases h; exact ih hx
  | case4 => cases h
  | case5 => cases h

theorem diffAreaLoop_not_missing (b : Bytes) (off : Nat) (e : Exc) (h : diffAreaLoop b off = .error e) : e ≠ .ShadowCopyNotFoundException := by
  fun_induction diffAreaLoop b off with
  | case1 => cases h; decide
  | case2 => cases h; decide
  | case3 => cases h
  | case4 => rename_i hx ih; cases h; exact ih hx
  | case5 => cases h
  | case6 => cases h

theorem readLocations_not_missing {vol : Bytes × Nat} {offset fuel : Nat} {e : Exc} (h : readLocations vol offset fuel = some (.error e)) :
    e ≠ .ShadowCopyNotFoundException := by
  unfold readLocations at h
  split at h
  · cases h
  · rename_i hc
    cases h
    exact chain_not_missing _ _ _ (fun b e h => locationLoop_not_missing b _ e h) _ _ _ hc
  · cases h

theorem readDiffArea_not_missing {vol : Bytes × Nat} {offset fuel : Nat} {e : Exc} (h : readDiffArea vol offset fuel = some (.error e)) :
    e ≠ .ShadowCopyNotFoundException := by
  unfold readDiffArea at h
  split at h
  · cases h
  · rename_i hc
    cases h
    exact chain_not_missing _ _ _ (fun b e h => diffAreaLoop_not_missing b _ e h) _ _ _ hc
  · cases h

theorem readApplication_not_missing {vol : Bytes × Nat} {offset : Nat} {e : Exc} (h : readApplication vol offset = .error e) :
    e ≠ .ShadowCopyNotFoundException := by
  unfold readApplication at h
  split at h
  · split at h
    · rename_i hr
      cases h
      unfold seekRead at hr
      split at hr <;> cases hr
      decide
    · split at h
      · rename_i hb
        cases h
        unfold applicationBlock at hb
        split at hb
        · cases hb; decide
        split at hb
        · cases hb; decide
        split at hb
        · cases hb; decide
        · cases hb
      · split at h <;> cases h
  · cases h

theorem selectLevel_error (img : Image) (o : Opened) (fuel depth : Nat) (key : Key) (l : Level) (next : List Level) (e : Exc) (l' : Level) (next' : List Level)
    (h : selectLevel img o fuel depth key l next = some (.error e, l', next')) :
    l'.selected = l.selected ∧ (e = .ShadowCopyNotFoundException → l' = l ∧ next' = next) := by
  cases depth with
  | zero => cases h
  | succ depth =>
    rw [selectLevel] at h
    split at h
    · cases h; exact ⟨rfl, fun _ => ⟨rfl, rfl⟩⟩
    split at h
    · cases h; exact ⟨rfl, fun _ => ⟨rfl, rfl⟩⟩
    dsimp only at h
    split at h
    · cases h
    · rename_i hx; cases h; exact ⟨rfl, fun he => absurd he (readBitmap_not_missing hx)⟩
    split at h
    · cases h
    · rename_i hx; cases h; exact ⟨rfl, fun he => absurd he (readBitmap_not_missing hx)⟩
    split at h
    · cases h
    · rename_i hx; cases h; exact ⟨rfl, fun he => absurd he (readLocations_not_missing hx)⟩
    split at h
    · rename_i hx; cases h; exact ⟨rfl, fun he => absurd he (readApplication_not_missing hx)⟩
    split at h
    · cases h
    · rename_i hx; cases h; exact ⟨rfl, fun he => absurd he (readDiffArea_not_missing hx)⟩
    split at h
    · cases h
    · cases h
    · split at h
      · cases h
      · rename_i hne; cases h; exact ⟨rfl, fun he => absurd he hne⟩

theorem selectShadow_error {img : Image} {o : Opened} {fuel : Nat} {key : Key} {p p' : Parser} {e : Exc}
    (h : selectShadow img o fuel key p = some (.error e, p')) : p'.level.selected = p.level.selected ∧ p'.offset = p.offset ∧
      (e = .ShadowCopyNotFoundException → p' = p) := by
  unfold selectShadow at h
  split at h
  · cases h; exact ⟨rfl, rfl, fun _ => rfl⟩
  split at h
  · cases h
  · cases h
  · rename_i hl
    cases h
    obtain ⟨h1, h2⟩ := selectLevel_error _ _ _ _ _ _ _ _ _ _ hl
    refine ⟨h1, rfl, fun he => ?_⟩
    obtain ⟨rfl, rfl⟩ := h2 he
    rfl

/-! ### C129: a parser with nothing selected -/

/-- The attributes that a selection assigns. -/
def Complete (l : Level) : Prop :=
  l.size ≠ none ∧ l.bitmap ≠ none ∧ l.previousBitmap ≠ none ∧ l.diffArea ≠ none ∧ l.nullTargets ≠ none ∧ l.returnNull ≠ none

theorem levelOf_complete (s : Store) : Complete (levelOf s) := by
  refine ⟨?_, ?_, ?_, ?_, ?_, ?_⟩ <;> (intro h; cases h)

theorem selectLevel_complete (img : Image) (o : Opened) (fuel depth : Nat) (key : Key) (l : Level) (next : List Level) (e : Exc) (l' : Level) (next' : List Level)
    (h : selectLevel img o fuel depth key l next = some (.error e, l', next')) (hc : Complete l) : Complete l' := by
  obtain ⟨c1, c2, c3, c4, c5, c6⟩ := hc
  cases depth with
  | zero => cases h
  | succ depth =>
    rw [selectLevel] at h
    split at h
    · cases h; exact ⟨c1, c2, c3, c4, c5, c6⟩
    split at h
    · cases h; exact ⟨c1, c2, c3, c4, c5, c6⟩
    dsimp only at h
    split at h
    · cases h
    · cases h; exact ⟨(fun h => by cases h), c2, c3, c4, c5, c6⟩
    split at h
    · cases h
    · cases h; exact ⟨(fun h => by cases h), (fun h => by cases h), c3, c4, c5, c6⟩
    split at h
    · cases h
    · cases h; exact ⟨(fun h => by cases h), (fun h => by cases h), (fun h => by cases h), c4, c5, c6⟩
    split at h
    · cases h; exact ⟨(fun h => by cases h), (fun h => by cases h), (fun h => by cases h), c4, c5, c6⟩
    split at h
    · cases h
    · cases h; exact ⟨(fun h => by cases h), (fun h => by cases h), (fun h => by cases h), c4, c5, c6⟩
    split at h
    · cases h
    · cases h
    · split at h
      · cases h
      · cases h; exact ⟨(fun h => by cases h), (fun h => by cases h), (fun h => by cases h), (fun h => by cases h), c5, c6⟩

/-- The calls change nothing but the offset, except for selections. -/
theorem call_level {img : Image} {o : Opened} {fuel : Nat} {p p' : Parser} {c : Call} {a : Answer} (h : call img o fuel p c = some (a, p'))
    (hc : ∀ key, c ≠ .select key) : p'.level = p.level ∧ p'.next = p.next := by
  cases c with
  | select key => exact absurd rfl (hc key)
  | seek off w =>
    unfold call Parser.seek at h
    dsimp only at h
    split at h
    · rename_i hs
      cases h
      split at hs
      · split at hs <;> cases hs; exact ⟨rfl, rfl⟩
      · cases hs
    · rename_i hs
      cases h
      split at hs
      · split at hs <;> cases hs; exact ⟨rfl, rfl⟩
      · cases hs; exact ⟨rfl, rfl⟩
  | tell =>
    unfold call at h
    dsimp only at h
    split at h <;> cases h <;> exact ⟨rfl, rfl⟩
  | read n fill =>
    have key : ∀ r, p.read img fill n = r → r.2.level = p.level ∧ r.2.next = p.next := by
      intro r hr
      unfold Parser.read at hr
      split at hr
      · subst hr; exact ⟨rfl, rfl⟩
      split at hr
      · dsimp only at hr
        split at hr
        · subst hr; exact ⟨rfl, rfl⟩
        split at hr <;> (subst hr; exact ⟨rfl, rfl⟩)
      · subst hr; exact ⟨rfl, rfl⟩
    unfold call at h
    dsimp only at h
    split at h
    · rename_i hr
      cases h
      exact key _ hr
    · rename_i hr
      cases h
      exact key _ hr

theorem select_level {img : Image} {o : Opened} {fuel : Nat} (ho : openVolume img fuel = some (.ok o)) {p p' : Parser} {key : Key} {a : Answer}
    (h : call img o fuel p (.select key) = some (a, p')) :
    (a = .nothing ∧ ∃ s newer, p' = parserOf s newer 0) ∨
    (∃ e, a = .raised e ∧ selectShadow img o fuel key p = some (.error e, p')) := by
  unfold call at h
  dsimp only at h
  rcases selectShadow_spec img o fuel ho key p with ⟨h1, h2⟩ | ⟨s, newer, h1, h2⟩ | ⟨e, x, h1, h2⟩
  · rw [h2] at h; cases h
  · rw [h2] at h; cases h; exact .inl ⟨rfl, s, newer, rfl⟩
  · rw [h2] at h; cases h; exact .inr ⟨e, rfl, h2⟩

/-- C129: whatever is called, a parser that says that a shadow copy is selected has all the attributes that reading needs: none is `None`. -/
theorem C129_attributes (img : Image) (o : Opened) (fuel : Nat) (ho : openVolume img fuel = some (.ok o)) (history : List Call) (as : List Answer) (p : Parser)
    (h : calls img o fuel .fresh history = some (as, p)) (hs : p.level.selected = true) :
    p.level.size ≠ none ∧ p.level.bitmap ≠ none ∧ p.level.previousBitmap ≠ none ∧ p.level.diffArea ≠ none ∧ p.level.nullTargets ≠ none ∧
      p.level.returnNull ≠ none := by
  have key : ∀ (l : List Call) (p q : Parser) (as : List Answer), calls img o fuel p l = some (as, q) → (p.level.selected = true → Complete p.level) →
      (q.level.selected = true → Complete q.level) := by
    intro l
    induction l with
    | nil => intro p q as h hp; cases h; exact hp
    | cons c l ih =>
      intro p q as h hp
      rw [calls] at h
      split at h
      · cases h
      rename_i a p1 hc
      split at h
      · cases h
      rename_i hl
      cases h
      refine ih _ _ _ hl ?_
      by_cases hsel : ∃ key, c = .select key
      · obtain ⟨key, rfl⟩ := hsel
        rcases select_level ho hc with ⟨-, s, newer, rfl⟩ | ⟨e, -, he⟩
        · exact fun _ => levelOf_complete s
        · intro h1
          have h2 := (selectShadow_error he).1
          rw [h1] at h2
          have hcp := hp h2.symm
          unfold selectShadow at he
          split at he
          · cases he; exact hcp
          split at he
          · cases he
          · cases he
          · rename_i hx
            cases he
            exact selectLevel_complete _ _ _ _ _ _ _ _ _ _ hx hcp
      · have := (call_level hc (fun key hk => hsel ⟨key, hk⟩)).1
        rw [this]
        exact hp
  exact key history .fresh p as h (fun h => by cases h) hs

/-- C129: as long as no selection has succeeded, `seek`, `tell` and `read` raise `ValueError` (and `read` with `debug_fill`
`NotImplementedError`, for two volumes), whatever selections were tried. -/
theorem C129_unselected (img : Image) (o : Opened) (fuel : Nat) (ho : openVolume img fuel = some (.ok o)) (history : List Call) (as : List Answer) (p : Parser)
    (h : calls img o fuel .fresh history = some (as, p)) (hno : Answer.nothing ∉ as) (c : Call) (hc : ∀ key, c ≠ .select key) :
    call img o fuel p c = some (.raised .ValueError, p) ∨
    ((∃ n, c = .read n true) ∧ img.storage ≠ none ∧ call img o fuel p c = some (.raised .NotImplementedError, p)) := by
  have key : ∀ (l : List Call) (p q : Parser) (as : List Answer), calls img o fuel p l = some (as, q) → p.level.selected = false → Answer.nothing ∉ as →
      q.level.selected = false := by
    intro l
    induction l with
    | nil => intro p q as h hp _; cases h; exact hp
    | cons c l ih =>
      intro p q as h hp hno
      rw [calls] at h
      split at h
      · cases h
      rename_i a p1 hc
      split at h
      · cases h
      rename_i hl
      cases h
      refine ih _ _ _ hl ?_ (fun hm => hno (List.mem_cons_of_mem _ hm))
      by_cases hsel : ∃ key, c = .select key
      · obtain ⟨key, rfl⟩ := hsel
        rcases select_level ho hc with ⟨ha, -⟩ | ⟨e, -, he⟩
        · exact absurd (by rw [ha]; exact List.mem_cons_self) hno
        · rw [(selectShadow_error he).1]; exact hp
      · rw [(call_level hc (fun key hk => hsel ⟨key, hk⟩)).1]
        exact hp
  have hp := key history .fresh p as h rfl hno
  cases c with
  | select key => exact absurd rfl (hc key)
  | seek off w => refine .inl ?_; unfold call Parser.seek; simp [hp]
  | tell => refine .inl ?_; unfold call Parser.tell; simp [hp]
  | read n fill =>
    unfold call Parser.read
    cases fill <;> cases hst : img.storage <;> simp [hp]

/-! ### C130 -/

/-- C130, what holds: a selection that is refused because there is no such shadow copy, or because the shadow copies are on another volume,
changes nothing: the calls after it get the answers that they would have got without it. -/
theorem C130_not_found_partial (img : Image) (o : Opened) (fuel : Nat) (key : Key) (p p' : Parser) (e : Exc)
    (he : e = .ShadowCopyNotFoundException ∨ e = .NotImplementedError) (ho : openVolume img fuel = some (.ok o))
    (h : call img o fuel p (.select key) = some (.raised e, p')) (later : List Call) : calls img o fuel p' later = calls img o fuel p later := by
  suffices hp : p' = p by rw [hp]
  rcases select_level ho h with ⟨h1, -⟩ | ⟨e', h1, h2⟩
  · cases h1
  cases h1
  rcases he with rfl | rfl
  · exact (selectShadow_error h2).2.2 rfl
  · unfold selectShadow at h2
    split at h2
    · cases h2; rfl
    split at h2
    · cases h2
    · cases h2
    · rename_i hl
      cases h2
      rcases selectLevel_spec img o fuel fuel key p.level p.next with ⟨-, g2⟩ | ⟨s, rest, -, g2⟩ | ⟨e, l', next', g1, g2⟩
      · rw [hl] at g2; cases g2
      · rw [hl] at g2; cases g2
      · rw [hl] at g2
        cases g2
        rcases selectStores_error g1 with h | ⟨h, -⟩
        · exact absurd h (by decide)
        · cases h

/-- C130: whatever a selection raises, the position stays, and it stays known whether a shadow copy is selected. -/
theorem C130_position (img : Image) (o : Opened) (fuel : Nat) (ho : openVolume img fuel = some (.ok o)) (key : Key) (p p' : Parser) (e : Exc)
    (h : call img o fuel p (.select key) = some (.raised e, p')) : p'.tell = p.tell := by
  rcases select_level ho h with ⟨h1, -⟩ | ⟨e', h1, h2⟩
  · cases h1
  · unfold Parser.tell
    rw [(selectShadow_error h2).1, (selectShadow_error h2).2.1]

end Verif.Props.Reselect
