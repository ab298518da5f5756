/-
A small exFAT volume for the examples: one table of a sector, clusters of a sector, the root directory in cluster 2.
-/
import Verif.Props.C72
namespace Verif.Props.ExFAT
open Verif.ExFAT Verif.Spec.ExFAT Volume

/-- The first sector: the table is at sector 24, the clusters (from 2 to 41) begin at sector 25. -/
def tinySector : Bytes :=
  [0xEB, 0x76, 0x90, 0x45, 0x58, 0x46, 0x41, 0x54, 0x20, 0x20, 0x20] ++ List.replicate 53 0 ++ natLE 8 0 ++ natLE 8 4096 ++ natLE 4 24 ++ natLE 4 1 ++
  natLE 4 25 ++ natLE 4 40 ++ natLE 4 2 ++ natLE 4 0x12345678 ++ [0, 1, 0, 0, 9, 0, 1, 0x80, 0] ++ List.replicate 397 0 ++ [0x55, 0xAA]

/-- A volume with a table and clusters; there is no backup. -/
def tinyObject (table clusters : Bytes) : Bytes :=
  tinySector ++ zeros 5120 ++ (sampleSum 328913166 512 ++ (zeros 6144 ++ (table ++ clusters)))

theorem tinySector_length : tinySector.length = 512 := by
  unfold tinySector
  simp only [List.length_append, List.length_cons, List.length_nil, List.length_replicate, natLE_length]

theorem tinyObject_length (table clusters : Bytes) : (tinyObject table clusters).length = 12288 + (table.length + clusters.length) := by
  unfold tinyObject
  simp only [List.length_append, tinySector_length, zeros_length, sampleSum_length (show 12 ≤ 512 by decide)]
  omega

theorem tiny_accepted (table clusters : Bytes) (h : (table.length + clusters.length) % 512 = 0) :
    openBR (tinyObject table clusters) = .ok ⟨tinyObject table clusters⟩ := by
  unfold tinyObject
  refine region_accepted tinySector (zeros 5120) _ _ _ (by decide +kernel) ?_ ?_ (by decide) (by decide) ?_
  · rw [zeros_length]; decide +kernel
  · simp only [List.length_append, zeros_length]; omega
  · rw [show (5120 : Nat) = 32 * 160 from rfl, zeros_fold _ (rotateSum_lt _)]
    decide +kernel

theorem tiny_select (table clusters : Bytes) (h : (table.length + clusters.length) % 512 = 0) (hl : table.length + clusters.length ≤ 36864) :
    selectBR (tinyObject table clusters) 0 = .ok (⟨tinyObject table clusters⟩, false) := by
  have hlen := tinyObject_length table clusters
  have hr : regionAt (tinyObject table clusters) 0 0 = tinyObject table clusters := by
    unfold regionAt
    exact slice_cut (by omega)
  have hc := chooseBR_cons_ok (object := tinyObject table clusters) (offset := 0) (place := 0) (rest := [12 * 512, 12 * 4096]) (by decide)
    (by rw [hr]; exact tiny_accepted table clusters h)
  exact selectBR_of_choose hc (accepted_sector (tiny_accepted table clusters h))

/-- An entry set with one part of a name; `sum` is its checksum. -/
def setOf (inUse : Bool) (sum : Nat) (name : String) (attributes cluster size : Nat) : Bytes :=
  let bit := if inUse then 0x80 else 0
  natLE 1 (0x05 + bit) ++ [2] ++ natLE 2 sum ++ natLE 2 attributes ++ [0, 0] ++ natLE 4 0x5A6F7D31 ++ natLE 4 0x5A6F7D31 ++ natLE 4 0x5A6F7D31 ++ zeros 12 ++
  natLE 1 (0x40 + bit) ++ [1, 0] ++ natLE 1 name.length ++ zeros 4 ++ natLE 8 size ++ zeros 4 ++ natLE 4 cluster ++ natLE 8 size ++
  natLE 1 (0x41 + bit) ++ [0] ++ (name.toList.map fun c => natLE 2 c.toNat).flatten ++ zeros (30 - 2 * name.length)

/-- The entry of the bitmap in cluster 3. -/
def bitmapEntry : Bytes := 0x81 :: zeros 19 ++ natLE 4 3 ++ natLE 8 5

/-- Entries and zeros up to 512 bytes. -/
def clusterOf (sets : List Bytes) : Bytes := sets.flatten ++ zeros (512 - sets.flatten.length)

/-- A volume with a root directory, two more directories in the clusters 4 and 5; the clusters 2 to 5 are allocated. -/
def tinyVolume (root cluster4 cluster5 : List Bytes) : Bytes :=
  tinyObject (natLE 4 0xFFFFFFF8 ++ (natLE 4 0xFFFFFFFF ++ (natLE 4 0xFFFFFFFF ++ (natLE 4 0xFFFFFFFF ++ (natLE 4 0xFFFFFFFF ++ (natLE 4 0xFFFFFFFF ++ zeros 488))))))
    (clusterOf (bitmapEntry :: root) ++ (0x0F :: zeros 511 ++ (clusterOf cluster4 ++ clusterOf cluster5)))

/-- The paths and the first clusters that a walk gives, and how it ends. -/
def listWalk (v : Volume) : Option (List (Str × Nat) × Option Exc) :=
  (v.walk false id (lastCluster v + 2)).map fun g =>
    (g.items.map fun | .file e => (e.name, e.firstCluster) | .orphan name => (name, 0) | .label name => (name, 1) | .bitmap _ c _ => ([], c), g.err)

/-- The same for the bytes of a volume. -/
def walkOf (object : Bytes) : Except Exc (Option (List (Str × Nat) × Option Exc)) :=
  match openVolume object 0 none with
  | .error e => .error e
  | .ok v => .ok (listWalk v)

/-- The part of the opening after the boot region, and the walk. -/
def walkAfter (object : Bytes) : Except Exc (Option (List (Str × Nat) × Option Exc)) :=
  match openHeap object 0 none ⟨object⟩ with
  | .error e => .error e
  | .ok heap =>
    match findBitmap heap ⟨object⟩ with
    | .error e => .error e
    | .ok bitmap => .ok (listWalk { heap with br := ⟨object⟩, bitmap, backupUsed := false })

theorem clusterOf_length {sets : List Bytes} (h : sets.flatten.length ≤ 512) : (clusterOf sets).length = 512 := by
  unfold clusterOf
  rw [List.length_append, zeros_length]
  omega

theorem walkOf_tiny (root cluster4 cluster5 : List Bytes) (h1 : (bitmapEntry :: root).flatten.length ≤ 512) (h2 : cluster4.flatten.length ≤ 512)
    (h3 : cluster5.flatten.length ≤ 512) : walkOf (tinyVolume root cluster4 cluster5) = walkAfter (tinyVolume root cluster4 cluster5) := by
  unfold walkOf openVolume
  have this : selectBR (tinyVolume root cluster4 cluster5) 0 = .ok (⟨tinyVolume root cluster4 cluster5⟩, false) := tiny_select (natLE 4 0xFFFFFFF8 ++ (natLE 4 0xFFFFFFFF ++ (natLE 4 0xFFFFFFFF ++ (natLE 4 0xFFFFFFFF ++ (natLE 4 0xFFFFFFFF ++ (natLE 4 0xFFFFFFFF ++ zeros 488))))))
    (clusterOf (bitmapEntry :: root) ++ (0x0F :: zeros 511 ++ (clusterOf cluster4 ++ clusterOf cluster5)))
    (by simp only [List.length_append, natLE_length, zeros_length, List.length_cons, clusterOf_length h1, clusterOf_length h2, clusterOf_length h3])
    (by simp only [List.length_append, natLE_length, zeros_length, List.length_cons, clusterOf_length h1, clusterOf_length h2, clusterOf_length h3]; decide)
  rw [if_neg (by simp), this]
  unfold walkAfter
  simp only [bind, Except.bind, pure, Except.pure]
  cases openHeap (tinyVolume root cluster4 cluster5) 0 none ⟨tinyVolume root cluster4 cluster5⟩ with
  | error e => rfl
  | ok heap =>
    dsimp only
    cases findBitmap heap ⟨tinyVolume root cluster4 cluster5⟩ with
    | error e => rfl
    | ok bitmap => rfl

/-- Two directories that contain one another; one of them contains itself and the root. -/
def loopVolume : Bytes :=
  tinyVolume [setOf true 30230 "A" 0x10 4 512]
    [setOf true 18431 "LOOP" 0x10 4 512, setOf true 20463 "ROOT" 0x10 2 512, setOf true 30270 "B" 0x10 5 512]
    [setOf true 13807 "BACK" 0x10 4 512, setOf true 26558 "F" 0x20 0 0]

example : walkOf loopVolume = .ok (some ([(Str.ofString "/A", 4), (Str.ofString "/A/B", 5), (Str.ofString "/A/B/F", 0)], none)) := by
  unfold loopVolume
  rw [walkOf_tiny _ _ _ (by decide +kernel) (by decide +kernel) (by decide +kernel)]
  decide +kernel

/-- A deleted directory whose cluster is in use; it begins with a deleted file and has an entry for itself. -/
def orphanVolume : Bytes :=
  tinyVolume [setOf false 0 "OLD" 0x10 4 512] [setOf false 0 "X" 0x20 0 0, setOf true 41574 "SUB" 0x10 4 512] []

/-- C72: an orphan directory can be entered once more while it is walked: here the orphan directory in cluster 4
has a subdirectory in cluster 4, and the entries of that are reported too. -/
theorem C72_orphan_entered_again : ∃ volume items, walkOf volume = .ok (some (items, none)) ∧
    (Str.ofString "<Orphan directory 4>/SUB", 4) ∈ items ∧ (Str.ofString "<Orphan directory 4>/SUB/X", 0) ∈ items := by
  refine ⟨orphanVolume, [(Str.ofString "/OLD", 4), (Str.ofString "<Orphan directory 4>/X", 0), (Str.ofString "<Orphan directory 4>/SUB", 4),
    (Str.ofString "<Orphan directory 4>/SUB/X", 0)], ?_, by decide +kernel, by decide +kernel⟩
  unfold orphanVolume
  rw [walkOf_tiny _ _ _ (by decide +kernel) (by decide +kernel) (by decide +kernel)]
  decide +kernel

/-- C73 does not hold: a directory with a size that is not a multiple of 512 ends the walk, nothing after it is
reported; with another size everything is. -/
theorem C73_aborted : ∃ sum1 sum2,
    walkOf (tinyVolume [setOf true sum1 "A" 0x10 4 100, setOf true 26558 "F" 0x20 0 0] [] []) =
      .ok (some ([(Str.ofString "/A", 4)], some .DirectoryEntriesException)) ∧
    walkOf (tinyVolume [setOf true sum2 "A" 0x10 4 512, setOf true 26558 "F" 0x20 0 0] [] []) =
      .ok (some ([(Str.ofString "/A", 4), (Str.ofString "/F", 0)], none)) := by
  refine ⟨62999, 30230, ?_, ?_⟩
  · rw [walkOf_tiny _ _ _ (by decide +kernel) (by decide +kernel) (by decide +kernel)]
    decide +kernel
  · rw [walkOf_tiny _ _ _ (by decide +kernel) (by decide +kernel) (by decide +kernel)]
    decide +kernel

end Verif.Props.ExFAT
