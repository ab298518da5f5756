/-
Model of dfir_ntfs/MFT.py:77-174: file references and mapping pairs.
-/
import Verif.Basic.Exc
namespace Verif.MFT

/-- dfir_ntfs/MFT.py:77-83 `DecodeFileRecordSegmentReference`. -/
def decodeFileRecordSegmentReference (referenceNumber : Nat) : Nat × Nat :=
  (referenceNumber &&& 0xFFFFFFFFFFFF, referenceNumber >>> 48)

/-- dfir_ntfs/MFT.py:85-88 `EncodeFileRecordSegmentReference`. -/
def encodeFileRecordSegmentReference (fileRecordSegmentNumber sequenceNumber : Nat) : Nat :=
  (sequenceNumber <<< 48) ||| fileRecordSegmentNumber

/-- dfir_ntfs/MFT.py:110-174: One item of a decoded run list: `(offset, length)` in clusters, the offset is `None` for a
sparse run. -/
abbrev Run := Option Int × Int

/-- dfir_ntfs/MFT.py:119-172, the body of the `while True` loop of `DecodeMappingPairs`.
`mp` is `MappingPairs[i:]`, `currOffset` and `runs` are the loop variables `curr_offset` and
`data_runs`.  `MappingPairs[i : i + n]` is `mp.take n`. -/
def decodeMappingPairsLoop (mp : Bytes) (currOffset : Int) (runs : List Run) : Except Exc (List Run) :=
  match mp with
  | [] => .error .MappingPairsException                               -- 120-121: buffer overrun
  | header :: rest =>
    if header = 0 then .ok runs                                       -- 124-125: terminator
    else
      let countLength := header.toNat &&& 15                          -- 129
      let offsetLength := header.toNat >>> 4                          -- 130
      if countLength = 0 ∨ countLength > 8 ∨ offsetLength > 8 then    -- 132-134
        .error .MappingPairsException
      else
        let countBytes := rest.take countLength                       -- 136
        if countBytes.length ≠ countLength then .error .MappingPairsException
        else
          let rest1 := rest.drop countLength                          -- 140
          let count := leInt countBytes                               -- 141
          if count ≤ 0 then .error .MappingPairsException             -- 143-145
          else if offsetLength > 0 then
            let offsetBytes := rest1.take offsetLength                -- 148
            if offsetBytes.length ≠ offsetLength then .error .MappingPairsException
            else
              let rest2 := rest1.drop offsetLength                    -- 152
              let offset := leInt offsetBytes                         -- 153
              let curr := currOffset + offset                         -- 161
              if curr = 0 ∧ runs.length > 0 then                      -- 168-170
                .error .MappingPairsException
              else decodeMappingPairsLoop rest2 curr (runs ++ [(some curr, count)])
          else                                                        -- 156, 159: sparse
            decodeMappingPairsLoop rest1 currOffset (runs ++ [(none, count)])
termination_by mp.length
decreasing_by all_goals simp_wf <;> omega

/-- dfir_ntfs/MFT.py:110-174 `DecodeMappingPairs`. -/
def decodeMappingPairs (mappingPairs : Bytes) : Except Exc (List Run) :=
  decodeMappingPairsLoop mappingPairs 0 []

end Verif.MFT
