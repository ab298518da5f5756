/-
A concrete file table for C134.
-/
import Verif.Props.C134
import Verif.Props.C16_C20_Concrete
namespace Verif.Props.Shared
open Verif Verif.MFT

/-- The hypotheses of C134_records and C134_lookup are met by the sample table, of which eight records are listed, one of them with a child segment, when
the file object is somewhere else each time. -/
example : Parser.init (sampleTable 3) true = .ok ⟨sampleTable 3, 1024, [(0x2000000000006, [8])]⟩ ∧ (sampleTable 3).length < 2 ^ 63 ∧
    (((Parser.mk (sampleTable 3) 1024 [(0x2000000000006, [8])]).recordsAmong false (fun k => 777 * k) 20 0 0).map fun g =>
      (g.items.map fun r => (r.base.masterFileTableNumber, r.children.length), g.err)) =
      some ([(some 0, 0), (some 1, 0), (some 2, 0), (some 3, 0), (some 4, 0), (some 5, 0), (some 6, 1), (some 7, 0)], none) :=
  ⟨sampleTable_parser, by decide +kernel, by decide +kernel⟩

end Verif.Props.Shared
