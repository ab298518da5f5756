/-
C119: a file table that cannot be read to its end.
-/
import Verif.Props.C109
import Verif.Props.C82
namespace Verif.Props.AllMft
open Verif.MFT Verif.Scripts Verif.ShadowCopy Verif.Spec.FragmentedFile

/-- C119: when the file table of a volume (any file object) is accepted, all of it can be read; the table of its contents is the same one, and
what is read of the file after that are parts of its contents. -/
theorem C119_accepted (f : DeviceFile) (size : Nat) (cache : List (Nat × List Nat)) (h : initFrom f.readAt f.fileSize = .ok (size, cache))
    (hd : size ∣ f.fileSize) :
    ∃ mft, f.contents = .ok mft ∧ mft.length = f.fileSize ∧ Parser.init mft = .ok ⟨mft, size, cache⟩ ∧
      ∀ p n, p + n ≤ f.fileSize → f.readAt p n = .ok (slice mft p (p + n)) := by
  obtain ⟨mft, hm⟩ := f.initFrom_contents h hd
  have hl := f.contents_length hm
  refine ⟨mft, hm, hl, ?_, fun p n hp => f.parts hm p n hp⟩
  obtain ⟨-, -, raw, h3, h4, h5, h6⟩ := initFrom_ok h
  have hs := supported_pos h6
  have hr : raw = slice mft 28 32 ∧ 32 ≤ mft.length := by
    by_cases hlen : 32 ≤ f.fileSize
    · have := f.parts hm 28 4 (by omega)
      rw [h3] at this
      exact ⟨by injection this, by omega⟩
    · exfalso
      obtain ⟨k, hk⟩ := hd
      cases k with
      | zero =>
        have : f.readAt 28 4 = .ok [] := by
          unfold DeviceFile.readAt
          rw [if_pos (.inr (by omega))]
        rw [h3] at this
        injection this with this
        rw [this] at h4
        cases h4
      | succ k => rw [hk, Nat.mul_succ] at hlen; omega
  have hdecl : declaredSize mft = size := by unfold declaredSize; rw [← hr.1]; exact h5
  have he := initFrom_eq (f.agrees hm) hr.2 (by rw [hdecl, hl]; exact hd)
  rw [hl, h] at he
  cases hp : Parser.init mft with
  | error e => rw [hp] at he; cases he
  | ok p =>
    rw [hp] at he
    injection he with he
    injection he with e1 e2
    have := (Parser.init_loaded hp).1
    obtain ⟨pf, ps, pc⟩ := p
    dsimp only at e1 e2 this
    rw [e1, e2, this]

/-- C119: the other direction: a file table that can be read, and that is one, is accepted. -/
theorem C119_complete (f : DeviceFile) (mft : Bytes) (p : Parser) (hm : f.contents = .ok mft) (hp : Parser.init mft = .ok p) (hd : p.size ∣ mft.length) :
    initFrom f.readAt f.fileSize = .ok (p.size, p.cache) := f.initFrom_of hm hp hd

theorem contents_bytes {f : FragmentedFile} (hr : ∀ r ∈ f.dataRuns, 0 ≤ r.2) {d : Bytes} (h : contents f = .ok d) (p : Nat) (hp : p < f.fileSize) :
    (fileByte f p).isSome := by
  have hc : f.device.contents = .ok d := by rw [f.device_contents]; exact h
  have hl : d.length = f.fileSize := f.device.contents_length hc
  obtain ⟨-, -, h3⟩ := readAt_bytes hr h
  have := h3 p (by omega)
  rw [Nat.zero_add] at this
  rw [← this, List.getElem?_eq_getElem (by omega)]
  rfl

theorem opened_runs {volume : Bytes} {off : Nat} {f : FragmentedFile} (h : MFT.openVolume volume off = .ok f) : ∀ r ∈ f.dataRuns, 0 ≤ r.2 := by
  obtain ⟨boot, spc, bps, frs, cluster, first, children, m⟩ := C82_open_sound volume off f h
  obtain ⟨exts, -, -, hc⟩ := m.runs
  exact hc.positive

/-- C119: when a byte of the file table of the volume is not in the image, there is no list: not even the header is written, and an exception
is raised. -/
theorem C119_all_or_nothing (volume : Bytes) (off fuel : Nat) (f : FragmentedFile) (hf : MFT.openVolume volume off = .ok f) (p : Nat) (hp : p < f.fileSize)
    (hb : fileByte f p = none) :
    (∃ e, processAllMft volume off fuel = some ⟨[], some e⟩) ∧ ∃ e, processIndx volume off = ⟨[], some e⟩ := by
  have hc : ∃ e, contents f = .error e := by
    cases hx : contents f with
    | error e => exact ⟨e, rfl⟩
    | ok d =>
      have := contents_bytes (opened_runs hf) hx p hp
      rw [hb] at this
      cases this
  obtain ⟨e, hc⟩ := hc
  have hd : openDevice (seekRead volume) off = .ok f.device := by rw [openDevice_bytes, hf]; rfl
  constructor
  · have : ∃ e, deviceTable (seekRead volume) off (Str.ofString "main volume") true = ⟨[], some e⟩ := by
      unfold deviceTable
      rw [hd, andThen_ok]
      cases initFrom f.device.readAt f.device.fileSize with
      | error e => exact ⟨e, rfl⟩
      | ok r =>
        rw [andThen_ok, f.device_contents, hc]
        exact ⟨e, rfl⟩
    obtain ⟨e', he⟩ := this
    refine ⟨e', ?_⟩
    unfold processAllMft
    rw [he]
  · refine ⟨e, ?_⟩
    unfold processIndx
    rw [hf, andThen_ok, hc]
    rfl

end Verif.Props.AllMft
