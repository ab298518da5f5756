/-
C105 and C106: the file system of `vsc_mount`.
-/
import Verif.Props.C42_C43
import Verif.Spec.Mount
namespace Verif.Props.Mount
open Verif.Scripts Verif.ShadowCopy Verif.Spec.Shadow Verif.Spec.Mount

/-! ### Reading with and without the option -/

theorem readLoopBy_eq (img : Image) (stores : List Store) (size p left : Nat) (data : Bytes) :
    readLoopBy (readBlockFill img stores false) size p left data = readLoop img stores size p left data := by
  have e : ∀ o, readBlockFill img stores false o = readBlock img stores o := by
    intro o
    unfold readBlockFill readBlock
    cases translate img.volumeSize stores o false false <;> rfl
  fun_induction readLoop img stores size p left data with
  | case1 p data => rw [readLoopBy, if_pos rfl]
  | case2 p left data h1 h2 => rw [readLoopBy, if_neg h1, if_pos h2]
  | case3 p left data h1 h2 x h3 => rw [readLoopBy, if_neg h1, if_neg h2, e, h3]
  | case4 p left data h1 h2 d h3 new h4 ih =>
    rw [readLoopBy, if_neg h1, if_neg h2, e, h3]
    dsimp only
    rw [dif_pos h4]
    exact ih
  | case5 p left data h1 h2 d h3 new h4 =>
    rw [readLoopBy, if_neg h1, if_neg h2, e, h3]
    dsimp only
    rw [dif_neg h4]

theorem readFill_false (img : Image) (stores : List Store) (p : Nat) (n : Option Int) :
    readFill img stores false p n = ShadowCopy.read img stores p n := by
  unfold readFill ShadowCopy.read
  rw [if_neg (by simp)]
  cases stores with
  | nil => rfl
  | cons s next =>
    dsimp only
    have e : ∀ o, readBlockFill img (s :: next) false o = readBlock img (s :: next) o := by
      intro o
      unfold readBlockFill readBlock
      cases translate img.volumeSize (s :: next) o false false <;> rfl
    rw [e]
    split
    · rfl
    · cases readBlock img (s :: next) (p / 0x4000 * 0x4000) with
      | error x => rfl
      | ok d =>
        dsimp only
        exact readLoopBy_eq _ _ _ _ _ _

/-! ### The state does not matter -/

theorem step_position (m : Mounted) (p q : Nat) (r : Request) : (m.step p r).1 = (m.step q r).1 := by
  cases r with
  | read h off n =>
    show (m.read p h off n).1 = (m.read q h off n).1
    unfold Mounted.read
    by_cases hh : h ≠ handleImageFile
    · rw [if_pos hh, if_pos hh]
    · rw [if_neg hh, if_neg hh]
      cases m.stores with
      | nil => rfl
      | cons s next =>
        dsimp only
        have e : ∀ k, seek m.img s k off 0 = if off < 0 then .error .ValueError else .ok off.toNat := by
          intro k; unfold seek; dsimp only; rw [if_pos rfl]
        rw [e p, e q]
        by_cases ho : off < 0
        · rw [if_pos ho]
        · rw [if_neg ho]
  | getattr i => simp only [Mounted.step]; repeat (first | split | rfl)
  | «open» i f => simp only [Mounted.step]; repeat (first | split | rfl)
  | opendir i => simp only [Mounted.step]; repeat (first | split | rfl)
  | lookup i f => simp only [Mounted.step]; repeat (first | split | rfl)
  | readdir i f => simp only [Mounted.step]; repeat (first | split | rfl)
  | _ => rfl

theorem run_append (m : Mounted) (p : Nat) (a b : List Request) : ∃ q, m.run p (a ++ b) = m.run p a ++ m.run q b := by
  induction a generalizing p with
  | nil => exact ⟨p, rfl⟩
  | cons r rest ih =>
    obtain ⟨q, hq⟩ := ih (m.step p r).2
    exact ⟨q, by rw [List.cons_append, Mounted.run, Mounted.run, hq, List.cons_append]⟩

theorem replyAfter_eq (m : Mounted) (history : List Request) (r : Request) : replyAfter m history r = some (m.step 0 r).1 := by
  unfold replyAfter
  obtain ⟨q, hq⟩ := run_append m 0 history [r]
  rw [hq]
  show (m.run 0 history ++ [(m.step q r).1]).getLast? = _
  rw [List.getLast?_append]
  show some _ = _
  rw [step_position m q 0 r]
  rfl

/-! ### Mounting -/

theorem mount_eq {volume : Bytes} {offset : Nat} {storage : Option (Bytes × Nat)} {altFill : Bool} {position fuel : Nat} {m : Mounted}
    (h : mount volume offset storage altFill position fuel = some (.ok m)) :
    select ⟨volume, offset, none, storage⟩ fuel (.position position) = some (.ok m.stores) ∧ m.img = ⟨volume, offset, none, storage⟩ ∧
      m.fill = (altFill && storage.isNone) := by
  unfold mount at h
  dsimp only at h
  cases hs : select ⟨volume, offset, none, storage⟩ fuel (.position position) with
  | none => rw [hs] at h; cases h
  | some x =>
    cases x with
    | error e => rw [hs] at h; cases h
    | ok stores =>
      rw [hs] at h
      cases h
      exact ⟨rfl, rfl, rfl⟩

theorem currentSize_eq {m : Mounted} (h : m.img.volumeSize = none) : m.currentSize = shadowSize m.img m.stores := by
  unfold Mounted.currentSize shadowSize
  cases m.stores with
  | nil => rfl
  | cons s next => rw [h]

theorem read_step {m : Mounted} (hne : m.stores ≠ []) (p n : Nat) : (m.step 0 (.read 2 p n)).1 =
    match (readFill m.img m.stores m.fill p (some n)).1 with | .error e => .error (.exception e) | .ok d => .ok (.data d) := by
  show (m.read 0 2 p n).1 = _
  unfold Mounted.read
  rw [if_neg (show ¬ (2 ≠ handleImageFile) by decide)]
  cases hs : m.stores with
  | nil => exact absurd hs hne
  | cons s next =>
    dsimp only
    have e : seek m.img s 0 (p : Int) 0 = .ok p := by
      unfold seek
      dsimp only
      rw [if_pos rfl, if_neg (by omega), Int.toNat_natCast]
    rw [e]
    dsimp only
    rcases readFill m.img (s :: next) m.fill p (some n) with ⟨x, q⟩
    cases x <;> rfl

/-! ### C105 -/

/-- C105: the answer to a request does not depend on the requests before it. -/
theorem C105_history (m : Mounted) (h1 h2 : List Request) (r : Request) : replyAfter m h1 r = replyAfter m h2 r := by
  rw [replyAfter_eq, replyAfter_eq]

/-- C105: whatever was requested before, a request that would change something is refused as on a read-only file system. -/
theorem C105_read_only (m : Mounted) (history : List Request) (r : Request) (h : Modifies r) :
    replyAfter m history r = some (.error .EROFS) := by
  rw [replyAfter_eq]
  cases r with
  | «open» i f =>
    have : f &&& (1 ||| 2 ||| 0x400) > 0 := by
      rw [show (1 ||| 2 ||| 0x400 : Nat) = 1027 from rfl]
      rcases Nat.eq_zero_or_pos (f &&& 1027) with hz | hp
      · exfalso
        have bit : ∀ i, (1027 : Nat).testBit i = true → f.testBit i = true → False := by
          intro i h1 h2
          have : (f &&& 1027).testBit i = true := by rw [Nat.testBit_and, h1, h2]; rfl
          rw [hz, Nat.zero_testBit] at this
          cases this
        rcases h with h | h | h
        · exact bit 0 (by decide) h
        · exact bit 1 (by decide) h
        · exact bit 10 (by decide) h
      · exact hp
    show some (Mounted.step m 0 (.open i f)).1 = _
    simp only [Mounted.step]
    rw [if_pos this]
  | create _ _ => rfl
  | mkdir _ _ => rfl
  | mknod _ _ => rfl
  | symlink _ _ _ => rfl
  | link _ _ _ => rfl
  | unlink _ _ => rfl
  | rmdir _ _ => rfl
  | rename _ _ _ _ => rfl
  | write _ _ _ => rfl
  | setattr _ => rfl
  | fsync _ => rfl
  | fsyncdir _ => rfl
  | _ => exact h.elim

/-- C105: whatever was requested before, a read of `n` bytes inside the image file returns exactly these bytes of the shadow copy,
if the image has them. -/
theorem C105_read (volume : Bytes) (offset : Nat) (storage : Option (Bytes × Nat)) (position fuel : Nat) (m : Mounted)
    (h : mount volume offset storage false position fuel = some (.ok m)) (history : List Request) (p n : Nat)
    (hp : p + n ≤ shadowSize m.img m.stores) (hr : Readable m.img m.stores p (p + n)) :
    ∃ d, replyAfter m history (.read 2 p n) = some (.ok (.data d)) ∧ d.length = n ∧
      ∀ i, i < n → d[i]? = byteAt ⟨volume, offset, none, storage⟩ m.stores (p + i) := by
  obtain ⟨hs, hi, hf⟩ := mount_eq h
  rw [← hi] at hs
  obtain ⟨hne, -⟩ := C41_selected _ _ _ _ hs
  obtain ⟨d, d1, d2, d3⟩ := C42_exact _ _ _ _ hs p n hp hr
  refine ⟨d, ?_, d2, by rw [← hi]; exact d3⟩
  rw [replyAfter_eq, read_step hne, hf, Bool.false_and, readFill_false, d1]

/-- C105: a read at the end of the image file or after it returns nothing. -/
theorem C105_end (volume : Bytes) (offset : Nat) (storage : Option (Bytes × Nat)) (altFill : Bool) (position fuel : Nat) (m : Mounted)
    (h : mount volume offset storage altFill position fuel = some (.ok m)) (history : List Request) (p n : Nat)
    (hp : shadowSize m.img m.stores ≤ p) : replyAfter m history (.read 2 p n) = some (.ok (.data [])) := by
  obtain ⟨hs, hi, hf⟩ := mount_eq h
  obtain ⟨hne, -⟩ := C41_selected _ _ _ _ hs
  rw [replyAfter_eq, read_step hne]
  unfold readFill
  have : ¬ (m.fill = true ∧ m.img.storage.isSome = true) := by
    rw [hf, hi]
    cases storage <;> simp
  rw [if_neg this]
  cases hst : m.stores with
  | nil => exact absurd hst hne
  | cons s next =>
    dsimp only
    rw [if_pos (.inr (by rw [virtualSize_eq m.img s next, ← hst]; exact hp))]

/-- C105: the name `image.raw` in the root directory (inode 1) leads to a file with the size of the shadow copy; the same attributes
are found under its inode. -/
theorem C105_lookup (volume : Bytes) (offset : Nat) (storage : Option (Bytes × Nat)) (altFill : Bool) (position fuel : Nat) (m : Mounted)
    (h : mount volume offset storage altFill position fuel = some (.ok m)) (history : List Request) :
    ∃ a, replyAfter m history (.lookup 1 (ascii "image.raw")) = some (.ok (.attributes a)) ∧ IsImageFile a (shadowSize m.img m.stores) ∧
      replyAfter m history (.getattr a.ino) = some (.ok (.attributes a)) ∧
      replyAfter m history (.open a.ino 0) = some (.ok (.handle 2)) := by
  obtain ⟨-, hi, -⟩ := mount_eq h
  have hn : ascii "image.raw" = nameImageFile := by decide +kernel
  have hsize : m.imageAttributes.size = shadowSize m.img m.stores := currentSize_eq (by rw [hi])
  refine ⟨m.imageAttributes, ?_, ?_, ?_, ?_⟩
  · rw [replyAfter_eq, hn]; rfl
  · rw [← hsize]
    refine ⟨(show (0x8000 ||| 420 : Nat) / 0x1000 = 8 by decide), (show (0x8000 ||| 420 : Nat).testBit 1 = false ∧ (0x8000 ||| 420 : Nat).testBit 4 = false by decide), rfl, rfl, ?_, ?_⟩
    · show m.currentSize ≤ 512 * ((m.currentSize + 512 - 1) / 512)
      omega
    · show 512 * ((m.currentSize + 512 - 1) / 512) < m.currentSize + 512
      omega
  · rw [replyAfter_eq]; rfl
  · rw [replyAfter_eq]; rfl

/-- C105: no other name is found. -/
theorem C105_other_names (m : Mounted) (history : List Request) (parent : Nat) (name : Bytes)
    (h : ¬ (parent = 1 ∧ name = ascii "image.raw")) : replyAfter m history (.lookup parent name) = some (.error .ENOENT) := by
  rw [replyAfter_eq]
  simp only [Mounted.step]
  rw [if_neg]
  rw [show nameImageFile = ascii "image.raw" by decide +kernel]
  exact h

/-- C105: the root directory is a directory; reading it from the start gives the image file, and reading it from where that entry
says that the rest starts gives nothing more. -/
theorem C105_directory (m : Mounted) (history : List Request) :
    (∃ a, replyAfter m history (.getattr 1) = some (.ok (.attributes a)) ∧ IsDirectory a) ∧
    ∃ handle a next, replyAfter m history (.opendir 1) = some (.ok (.handle handle)) ∧
      replyAfter m history (.readdir handle 0) = some (.ok (.entries [(ascii "image.raw", a, next)])) ∧
      replyAfter m history (.lookup 1 (ascii "image.raw")) = some (.ok (.attributes a)) ∧
      replyAfter m history (.readdir handle next) = some (.ok (.entries [])) := by
  have hn : ascii "image.raw" = nameImageFile := by decide +kernel
  rw [hn]
  refine ⟨⟨rootAttributes, by rw [replyAfter_eq]; rfl, rfl, rfl⟩, 1, m.imageAttributes, 1, ?_, ?_, ?_, ?_⟩
  · rw [replyAfter_eq]; rfl
  · rw [replyAfter_eq]; rfl
  · rw [replyAfter_eq]; rfl
  · rw [replyAfter_eq]; rfl

/-- C105: other inodes and handles lead to nothing. -/
theorem C105_nothing_else (m : Mounted) (history : List Request) (inode flags handle p n : Nat) (h1 : inode ≠ 1) (h2 : inode ≠ 2)
    (h3 : handle ≠ 1) (h4 : handle ≠ 2) (hf : ¬ Modifies (.open inode flags)) :
    replyAfter m history (.getattr inode) = some (.error .EBADF) ∧ replyAfter m history (.open inode flags) = some (.error .ENOENT) ∧
    replyAfter m history (.open 1 flags) = some (.error .ENOENT) ∧
    replyAfter m history (.opendir inode) = some (.error .ENOENT) ∧ replyAfter m history (.opendir 2) = some (.error .ENOENT) ∧
    replyAfter m history (.read handle p n) = some (.error .EBADF) ∧ replyAfter m history (.read 1 p n) = some (.error .EBADF) ∧
    replyAfter m history (.readdir handle p) = some (.error .EBADF) ∧ replyAfter m history (.readdir 2 p) = some (.error .EBADF) := by
  have hz : ¬ (flags &&& (1 ||| 2 ||| 0x400) > 0) := by
    rw [show (1 ||| 2 ||| 0x400 : Nat) = 1027 from rfl]
    have : flags &&& 1027 = 0 := by
      apply Nat.eq_of_testBit_eq
      intro i
      rw [Nat.testBit_and, Nat.zero_testBit]
      by_cases hi : i < 11
      · have hc : i = 0 ∨ i = 1 ∨ i = 10 ∨ (1027 : Nat).testBit i = false := by
          revert hi
          revert i
          decide
        unfold Modifies at hf
        rcases hc with rfl | rfl | rfl | hc
        · rw [show flags.testBit 0 = false from Bool.eq_false_iff.mpr fun h => hf (.inl h)]; rfl
        · rw [show flags.testBit 1 = false from Bool.eq_false_iff.mpr fun h => hf (.inr (.inl h))]; rfl
        · rw [show flags.testBit 10 = false from Bool.eq_false_iff.mpr fun h => hf (.inr (.inr h))]; rfl
        · rw [hc, Bool.and_false]
      · rw [show (1027 : Nat).testBit i = false from Nat.testBit_lt_two_pow (Nat.lt_of_lt_of_le (by decide : 1027 < 2 ^ 11)
          (Nat.pow_le_pow_right (by decide) (by omega))), Bool.and_false]
    omega
  have e1 : rootInode = 1 := rfl
  have e2 : inodeImageFile = 2 := rfl
  have e3 : handleRootDir = 1 := rfl
  have e4 : handleImageFile = 2 := rfl
  simp only [replyAfter_eq, Mounted.step, Mounted.read, e1, e2, e3, e4, if_neg hz]
  refine ⟨?_, ?_, rfl, ?_, rfl, ?_, rfl, ?_, rfl⟩
  · rw [if_neg h2, if_neg h1]
  · rw [if_neg h2]
  · rw [if_neg h1]
  · rw [if_pos h4]
  · rw [if_pos h3]

/-! ### C106 -/

theorem pattern_byte (j : Nat) (hj : j < 512) : emptyPattern[j]? = some (pattern "EMPTY" j) ∧ originalPattern[j]? = some (pattern "ORIGINAL" j) := by
  revert j
  decide +kernel

theorem pattern_length : emptyPattern.length = 512 ∧ originalPattern.length = 512 := by decide +kernel

/-- The byte `j` of a sector with the alternate fill, where `b` is the offset of the sector. -/
def filled (img : Image) (b : Nat) (x : Source) (j : Nat) : Option UInt8 :=
  match x with
  | .zero => some (pattern "EMPTY" j)
  | .volume o => if o = b then some (pattern "ORIGINAL" j) else sourceByte img x j
  | .store o => if o = b then some (pattern "ORIGINAL" j) else sourceByte img x j

theorem fillSource_sound {img : Image} {b i : Nat} {x : Source} {d : Bytes} (h : fillSource img b i x = .ok d) :
    d.length ≤ 512 ∧ ∀ j, j < d.length → d[j]? = filled img (b + 512 * i) x j := by
  obtain ⟨l1, l2⟩ := pattern_length
  have key : ∀ y, y = x → (match y with | .zero => False | .volume o => True | .store o => True) →
      (∀ o, x = .volume o ∨ x = .store o → o ≠ b + 512 * i → readSource img x = .ok d) := by
    intro y hy _ o ho hne
    rcases ho with rfl | rfl
    · unfold fillSource at h; dsimp only at h; rw [if_neg hne] at h; exact h
    · unfold fillSource at h; dsimp only at h; rw [if_neg hne] at h; exact h
  cases x with
  | zero =>
    cases h
    exact ⟨by omega, fun j hj => (pattern_byte j (by omega)).1⟩
  | volume o =>
    unfold filled
    dsimp only
    by_cases ho : o = b + 512 * i
    · unfold fillSource at h; dsimp only at h; rw [if_pos ho] at h; cases h
      exact ⟨by omega, fun j hj => by rw [if_pos ho]; exact (pattern_byte j (by omega)).2⟩
    · have := readSource_sound (key _ rfl trivial o (.inl rfl) ho)
      exact ⟨this.1, fun j hj => by rw [if_neg ho]; exact this.2 j hj⟩
  | store o =>
    unfold filled
    dsimp only
    by_cases ho : o = b + 512 * i
    · unfold fillSource at h; dsimp only at h; rw [if_pos ho] at h; cases h
      exact ⟨by omega, fun j hj => by rw [if_pos ho]; exact (pattern_byte j (by omega)).2⟩
    · have := readSource_sound (key _ rfl trivial o (.inr rfl) ho)
      exact ⟨this.1, fun j hj => by rw [if_neg ho]; exact this.2 j hj⟩

theorem fillSource_complete {img : Image} {b i : Nat} {x : Source} (hs : Seekable img x) : ∃ d, fillSource img b i x = .ok d ∧
    ((sourceByte img x 511).isSome = true → d.length = 512) := by
  obtain ⟨l1, l2⟩ := pattern_length
  cases x with
  | zero => exact ⟨_, rfl, fun _ => l1⟩
  | volume o =>
    unfold fillSource
    dsimp only
    by_cases ho : o = b + 512 * i
    · rw [if_pos ho]; exact ⟨_, rfl, fun _ => l2⟩
    · rw [if_neg ho]; exact readSource_complete hs
  | store o =>
    unfold fillSource
    dsimp only
    by_cases ho : o = b + 512 * i
    · rw [if_pos ho]; exact ⟨_, rfl, fun _ => l2⟩
    · rw [if_neg ho]; exact readSource_complete hs

theorem fillSources_sound {img : Image} {b i : Nat} {l : List Source} {d : Bytes} (h : fillSources img b i l = .ok d) :
    d.length ≤ 512 * l.length ∧ ∀ j, j < d.length → ∃ x, l[j / 512]? = some x ∧ d[j]? = filled img (b + 512 * (i + j / 512)) x (j % 512) := by
  induction l generalizing d i with
  | nil => cases h; simp
  | cons x rest ih =>
    rw [fillSources] at h
    cases hx : fillSource img b i x with
    | error e => rw [hx] at h; cases h
    | ok c =>
      rw [hx] at h
      obtain ⟨c1, c2⟩ := fillSource_sound hx
      dsimp only at h
      by_cases hc : c.length ≠ 512
      · rw [if_pos hc] at h
        cases h
        refine ⟨by rw [List.length_cons]; omega, fun j hj => ⟨x, ?_, ?_⟩⟩
        · rw [show j / 512 = 0 by omega]; rfl
        · rw [show j % 512 = j by omega, show j / 512 = 0 by omega, Nat.add_zero]; exact c2 j hj
      · rw [if_neg hc] at h
        cases hr : fillSources img b (i + 1) rest with
        | error e => rw [hr] at h; cases h
        | ok ds =>
          rw [hr] at h
          cases h
          obtain ⟨i1, i2⟩ := ih hr
          refine ⟨by rw [List.length_append, List.length_cons]; omega, fun j hj => ?_⟩
          rw [List.length_append] at hj
          by_cases hj2 : j < 512
          · refine ⟨x, by rw [show j / 512 = 0 by omega]; rfl, ?_⟩
            rw [List.getElem?_append_left (by omega), show j % 512 = j by omega, show j / 512 = 0 by omega, Nat.add_zero]
            exact c2 j (by omega)
          · obtain ⟨y, y1, y2⟩ := i2 (j - 512) (by omega)
            refine ⟨y, ?_, ?_⟩
            · rw [show j / 512 = (j - 512) / 512 + 1 by omega, List.getElem?_cons_succ]; exact y1
            · rw [List.getElem?_append_right (by omega), show j - c.length = j - 512 by omega, y2,
                show (j - 512) % 512 = j % 512 by omega, show i + 1 + (j - 512) / 512 = i + j / 512 by omega]

theorem fillSources_complete {img : Image} (b i : Nat) (l : List Source) (hs : ∀ x ∈ l, Seekable img x) : ∃ d, fillSources img b i l = .ok d ∧
    ∀ k, k ≤ l.length → (∀ j x, j < k → l[j]? = some x → (sourceByte img x 511).isSome = true) → 512 * k ≤ d.length := by
  induction l generalizing i with
  | nil => exact ⟨[], rfl, fun k hk _ => by simp at hk; subst hk; simp⟩
  | cons x rest ih =>
    obtain ⟨c, c1, c2⟩ := fillSource_complete (b := b) (i := i) (hs x (by simp))
    obtain ⟨ds, d1, d2⟩ := ih (i + 1) (fun y hy => hs y (List.mem_cons_of_mem _ hy))
    rw [fillSources, c1]
    dsimp only
    by_cases hc : c.length ≠ 512
    · rw [if_pos hc]
      refine ⟨c, rfl, fun k hk h => ?_⟩
      cases k with
      | zero => omega
      | succ k => exact absurd (c2 (h 0 x (by omega) rfl)) hc
    · rw [if_neg hc, d1]
      refine ⟨c ++ ds, rfl, fun k hk h => ?_⟩
      rw [List.length_append]
      cases k with
      | zero => omega
      | succ k =>
        have := d2 k (by simp at hk; omega) (fun j y hj hy => h (j + 1) y (by omega) (by rw [List.getElem?_cons_succ]; exact hy))
        omega

theorem pattern_mod (w : String) (a b : Nat) (h : a % 16 = b % 16) : pattern w a = pattern w b := by unfold pattern; rw [h]

theorem fillByte_block (img : Image) (stores : List Store) (k j : Nat) (hj : j < 0x4000) : fillByte img stores (k * 0x4000 + j) =
    filled img (k * 0x4000 + 512 * (j / 512)) (sector stores (k * 0x4000) true false (j / 512)) (j % 512) := by
  unfold fillByte filled
  rw [show (k * 0x4000 + j) / 0x4000 = k by omega, show (k * 0x4000 + j) % 0x4000 = j by omega,
    show (k * 0x4000 + j) % 512 = j % 512 by omega, show (k * 0x4000 + j) / 512 * 512 = k * 0x4000 + 512 * (j / 512) by omega,
    pattern_mod _ (k * 0x4000 + j) (j % 512) (by omega), pattern_mod _ (k * 0x4000 + j) (j % 512) (by omega)]
  cases sector stores (k * 0x4000) true false (j / 512) <;> rfl

theorem fillBlock_complete {img : Image} {stores : List Store} (hne : stores ≠ []) (hl : ∀ s ∈ stores, Loaded s) {k : Nat}
    (hb : BlockOffset img.volumeSize (k * 0x4000)) (hf : ForwardersInside img.volumeSize stores)
    (hs : ∀ i, i < 32 → Seekable img (sector stores (k * 0x4000) true false i)) : ∃ d, readBlockFill img stores true (k * 0x4000) = .ok d ∧
    d.length ≤ 0x4000 ∧ (∀ j, j < d.length → d[j]? = fillByte img stores (k * 0x4000 + j)) ∧
    ∀ n, n ≤ 0x4000 → (∀ j, j / 512 * 512 < n → (byteAt img stores (k * 0x4000 + j)).isSome = true) → n ≤ d.length := by
  unfold readBlockFill
  rcases translate_outcome img.volumeSize stores hne hl (k * 0x4000) false false with ⟨l, h1, h2, h3⟩ | ⟨h1, h2⟩
  · rw [h1]
    dsimp only
    rw [if_pos rfl]
    obtain ⟨d, d1, d2⟩ := fillSources_complete (k * 0x4000) 0 l (fun x hx => by
      obtain ⟨i, hi⟩ := List.mem_iff_getElem?.mp hx
      have hi32 : i < 32 := by rw [← h2]; exact (List.getElem?_eq_some_iff.mp hi).1
      rw [h3 i hi32] at hi
      cases hi
      exact hs i hi32)
    obtain ⟨a, b⟩ := fillSources_sound d1
    refine ⟨d, d1, by omega, fun j hj => ?_, fun n hn h => ?_⟩
    · obtain ⟨x, x1, x2⟩ := b j hj
      rw [h3 (j / 512) (by omega)] at x1
      cases x1
      rw [x2, fillByte_block _ _ _ _ (by omega), Nat.zero_add]
      rfl
    · have := d2 ((n + 511) / 512) (by omega) (fun j x hj hx => by
        rw [h3 j (by omega)] at hx
        cases hx
        have := h (j * 512 + 511) (by omega)
        rw [byteAt_block _ _ _ _ (by omega), show (j * 512 + 511) / 512 = j by omega, show (j * 512 + 511) % 512 = 511 by omega] at this
        exact this)
      omega
  · exact absurd ⟨hb, hf⟩ h2

/-- What the reads of the blocks up to `e` give. -/
def Gives (block : Nat → Except Exc Bytes) (B : Nat → Option UInt8) (a e : Nat) : Prop :=
  ∀ k, a / 0x4000 ≤ k → k * 0x4000 < e → ∃ d, block (k * 0x4000) = .ok d ∧ d.length ≤ 0x4000 ∧
    (k * 0x4000 + d.length ≥ e ∨ d.length = 0x4000) ∧ ∀ j, j < d.length → d[j]? = B (k * 0x4000 + j)

theorem gives_part {block : Nat → Except Exc Bytes} {B : Nat → Option UInt8} {a p n e : Nat} (hg : Gives block B a e) (ha : a ≤ p)
    (hn : 0 < n) (he : p + n = e) : ∃ d, block (p / 0x4000 * 0x4000) = .ok d ∧
      IsMin (slice d (p % 0x4000) (p % 0x4000 + n)).length n (0x4000 - p % 0x4000) ∧
      ∀ i, i < (slice d (p % 0x4000) (p % 0x4000 + n)).length → (slice d (p % 0x4000) (p % 0x4000 + n))[i]? = B (p + i) := by
  obtain ⟨d, d1, d2, d3, d4⟩ := hg (p / 0x4000) (Nat.div_le_div_right ha) (by omega)
  have hlen : IsMin (slice d (p % 0x4000) (p % 0x4000 + n)).length n (d.length - p % 0x4000) := by
    rw [isMin_iff, slice_length, Nat.add_sub_cancel_left]
  refine ⟨d, d1, ?_, fun i hi => ?_⟩
  · unfold IsMin at hlen ⊢
    omega
  · unfold IsMin at hlen
    rw [slice_getElem?, if_pos (by omega), d4 _ (by omega)]
    congr 1
    omega

theorem readLoopBy_exact (block : Nat → Except Exc Bytes) (B : Nat → Option UInt8) (a e size p left : Nat) (data : Bytes)
    (hg : Gives block B a e) (ha : a ≤ p) (he : p + left = e) (hs : e ≤ size) (hal : left = 0 ∨ p % 0x4000 = 0) :
    ∃ x, readLoopBy block size p left data = (.ok (data ++ x), e) ∧ x.length = left ∧ ∀ i, i < left → x[i]? = B (p + i) := by
  fun_induction readLoopBy block size p left data with
  | case1 p data => exact ⟨[], by rw [List.append_nil, ← he]; rfl, rfl, fun i hi => by omega⟩
  | case2 p left data h1 h2 => omega
  | case3 p left data h1 h2 x h3 =>
    obtain ⟨d, d1, -⟩ := gives_part hg ha (by omega) he
    rw [d1] at h3; cases h3
  | case4 p left data h1 h2 d h3 new h4 ih =>
    obtain ⟨d', d1, d2, d3⟩ := gives_part hg ha (by clear ih; omega) he
    rw [d1] at h3; cases h3
    have d2 : IsMin new.length left (0x4000 - p % 0x4000) := d2
    have d3 : ∀ i, i < new.length → new[i]? = B (p + i) := d3
    clear_value new
    unfold IsMin at d2
    obtain ⟨x, x1, x2, x3⟩ := ih (by clear ih; omega) (by clear ih; omega) (by clear ih; omega)
    refine ⟨new ++ x, by rw [x1, List.append_assoc], by rw [List.length_append, x2]; omega, fun i hi => ?_⟩
    by_cases hi2 : i < new.length
    · rw [List.getElem?_append_left hi2]; exact d3 i hi2
    · rw [List.getElem?_append_right (by omega), x3 _ (by omega)]
      congr 1; omega
  | case5 p left data h1 h2 d h3 new h4 =>
    obtain ⟨d', d1, d2, d3⟩ := gives_part hg ha (by omega) he
    rw [d1] at h3; cases h3
    have d2 : IsMin new.length left (0x4000 - p % 0x4000) := d2
    have d3 : ∀ i, i < new.length → new[i]? = B (p + i) := d3
    clear_value new
    unfold IsMin at d2
    have : new.length = left := by omega
    exact ⟨new, by rw [this, he], this, fun i hi => d3 i (by omega)⟩

theorem before_end (k j n e : Nat) (hj : j / 512 * 512 < n) (he : k * 0x4000 + n ≤ e) : (k * 0x4000 + j) / 512 * 512 < e := by
  have : (k * 0x4000 + j) / 512 * 512 = k * 0x4000 + j / 512 * 512 := by omega
  rw [this]
  exact Nat.lt_of_lt_of_le (Nat.add_lt_add_left hj _) he

/-- C106: with the alternate fill, a read inside the image file returns exactly the bytes of the shadow copy with its empty and
original sectors replaced, whatever was requested before. -/
theorem C106_fill (volume : Bytes) (offset position fuel : Nat) (m : Mounted)
    (h : mount volume offset none true position fuel = some (.ok m)) (history : List Request) (p n : Nat)
    (hp : p + n ≤ shadowSize m.img m.stores) (hr : Readable m.img m.stores p (p + n)) :
    ∃ d, replyAfter m history (.read 2 p n) = some (.ok (.data d)) ∧ d.length = n ∧
      ∀ i, i < n → d[i]? = fillByte ⟨volume, offset, none, none⟩ m.stores (p + i) := by
  obtain ⟨hs, hi, hf⟩ := mount_eq h
  rw [← hi] at hs
  obtain ⟨hne, hl⟩ := C41_selected _ _ _ _ hs
  have hg : Gives (readBlockFill m.img m.stores true) (fillByte m.img m.stores) p (p + n) := by
    intro k hk1 hk2
    have hlow : p / 0x4000 * 0x4000 ≤ k * 0x4000 := Nat.mul_le_mul_right _ hk1
    obtain ⟨d, d1, d2, d3, d4⟩ := fillBlock_complete (k := k) hne hl ⟨Nat.dvd_mul_left _ _, fun x hx => by rw [hi] at hx; cases hx⟩ hr.forwarders
      (fun i hi32 => by
        have := hr.offsets (k * 0x4000 + i * 512) (Nat.le_trans hlow (Nat.le_add_right _ _)) (by rw [show (k * 0x4000 + i * 512) / 0x4000 = k by omega]; exact hk2)
        rw [show (k * 0x4000 + i * 512) / 0x4000 = k by omega, show (k * 0x4000 + i * 512) % 0x4000 / 512 = i by omega] at this
        exact this)
    refine ⟨d, d1, d2, ?_, d3⟩
    by_cases hc : p + n - k * 0x4000 ≤ 0x4000
    · have := d4 (p + n - k * 0x4000) hc (fun j hj => hr.bytes _ (Nat.le_trans hlow (Nat.le_add_right _ _)) (before_end k j _ _ hj (by clear hlow; omega)))
      omega
    · have := d4 0x4000 (Nat.le_refl _) (fun j hj => hr.bytes _ (Nat.le_trans hlow (Nat.le_add_right _ _)) (before_end k j _ _ hj (by clear hlow; omega)))
      omega
  rw [replyAfter_eq, read_step hne, hf, show (true && (none : Option (Bytes × Nat)).isNone) = true from rfl, ← hi]
  unfold readFill
  rw [if_neg (by rw [hi]; simp)]
  cases hst : m.stores with
  | nil => exact absurd hst hne
  | cons s next =>
    dsimp only
    rw [← hst, show readSize (virtualSize m.img s) p (some n) = n by unfold readSize; dsimp only; rw [if_neg (by omega)],
      virtualSize_eq m.img s next, ← hst]
    by_cases hn : n = 0
    · subst hn
      rw [if_pos (.inl (by omega))]
      exact ⟨[], rfl, rfl, fun i hi => by omega⟩
    rw [if_neg (by omega), Int.toNat_natCast]
    obtain ⟨blk, b1, b2, b3⟩ := gives_part hg (Nat.le_refl _) (by omega) rfl
    rw [b1]
    dsimp only
    generalize slice blk (p % 0x4000) (p % 0x4000 + n) = data at b2 b3 ⊢
    unfold IsMin at b2
    obtain ⟨x, x1, x2, x3⟩ := readLoopBy_exact _ _ p (p + n) (shadowSize m.img m.stores) (p + data.length) (n - data.length) data hg
      (by omega) (by omega) hp (by omega)
    rw [x1]
    refine ⟨data ++ x, rfl, by rw [List.length_append, x2]; omega, fun i hi => ?_⟩
    by_cases hi2 : i < data.length
    · rw [List.getElem?_append_left hi2]; exact b3 i hi2
    · rw [List.getElem?_append_right (by omega), x3 _ (by omega)]
      congr 1; omega

/-- C106: a sector that is neither empty nor original is not changed by the alternate fill. -/
theorem C106_same (img : Image) (stores : List Store) (p : Nat)
    (h : ∃ o, o ≠ p / 512 * 512 ∧ (sector stores (p / 0x4000 * 0x4000) true false (p % 0x4000 / 512) = .volume o ∨
      sector stores (p / 0x4000 * 0x4000) true false (p % 0x4000 / 512) = .store o)) : fillByte img stores p = byteAt img stores p := by
  obtain ⟨o, ho, hs⟩ := h
  unfold fillByte byteAt
  rcases hs with hs | hs
  · rw [hs]; dsimp only; rw [if_neg ho]; rfl
  · rw [hs]; dsimp only; rw [if_neg ho]; rfl

end Verif.Props.Mount
