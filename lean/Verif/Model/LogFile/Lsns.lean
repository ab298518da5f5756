/-
Model of dfir_ntfs/LogFile.py:770-1166 and 1254-1275: collecting the LSNs of a log file.

Sets of LSNs are duplicate-free lists.  The order in which Python iterates over a set is a parameter
`order` (the theorems hold for every one that gives a permutation).  Loops that need not end get a
number of steps, and the result is `none` when they do not suffice.
-/
import Verif.Model.LogFile.Client
import Verif.Basic.Sort
namespace Verif.LogFile

/-- dfir_ntfs/LogFile.py:770-1147 (sets of LSNs): `s.add(x)`. -/
def setAdd (s : List Nat) (x : Nat) : List Nat := if x ∈ s then s else x :: s

/-- dfir_ntfs/LogFile.py:1270-1275, the loop of `log_record_pages`: `n` pages are left, the next one is `i`. -/
def Parser.pagesLoop (p : Parser) (file : Bytes) : Nat → Nat → Except Exc (List LogRecordPage)
  | 0, _ => .ok []
  | n + 1, i =>
    match p.getPage file i with
    | .error e => .error e
    | .ok none => p.pagesLoop file n (i + 1)
    | .ok (some page) =>
      match p.pagesLoop file n (i + 1) with
      | .error e => .error e
      | .ok rest => .ok (page :: rest)

/-- dfir_ntfs/LogFile.py:1254-1275 `log_record_pages(1)` (every page but the two restart pages).  The
generator is only used in loops that have no other effect before it raises, so its items are not kept
in that case. -/
def Parser.allPages (p : Parser) (file : Bytes) : Except Exc (List LogRecordPage) :=
  p.pagesLoop file (p.fileSize / p.logPageSize - 2) 2

/-- dfir_ntfs/LogFile.py:1254-1275 `log_record_pages(0)` (the "infinite" area). -/
def Parser.infinitePages (p : Parser) (file : Bytes) : Except Exc (List LogRecordPage) :=
  match p.wrappedPage with
  | .error e => .error e
  | .ok start => p.pagesLoop file (p.fileSize / p.logPageSize - start) start

/-- dfir_ntfs/LogFile.py:775-787 (and 789-800): the LSNs recorded by a restart page. -/
def restartPageLsns (page : Bytes) : Except Exc (List Nat) :=
  match getRestartArea page with
  | .error e => .error e
  | .ok area =>
    match currentLsn area with
    | .error e => .error e
    | .ok current =>
      let rec go : List Bytes → Except Exc (List Nat)
        | [] => .ok []
        | c :: cs =>
          match clientOldestLsn c, clientRestartLsn c with
          | .ok a, .ok b =>
            match go cs with
            | .error e => .error e
            | .ok rest => .ok (a :: b :: rest)
          | .error e, _ => .error e
          | .ok _, .error e => .error e
      match go (clients area).items with
      | .error e => .error e
      | .ok rest =>
        match (clients area).err with
        | some e => .error e
        | none => .ok (chkdskLsn page :: current :: rest)

/-- dfir_ntfs/LogFile.py:775-807: the first LSNs. -/
def Parser.firstLsns (p : Parser) (file : Bytes) : Except Exc (List Nat) :=
  match (match p.restartPage1 with | none => Except.ok [] | some page => restartPageLsns page) with
  | .error e => .error e
  | .ok a =>
    match (match p.restartPage2 with | none => Except.ok [] | some page => restartPageLsns page) with
    | .error e => .error e
    | .ok b =>
      match p.allPages file with
      | .error e => .error e
      | .ok pages => .ok (a ++ b ++ pages.flatMap fun page => [page.lastLsn, page.lastEndLsn])

/-- The lookup of a record by its LSN, as it is written out at dfir_ntfs/LogFile.py:812-826, 840-854,
869-880, 968-979, 1000-1011 and 1100-1111: nothing for the page number 0, for a missing page and for a
LogFileException. -/
def Parser.recordOf (p : Parser) (file : Bytes) (lsn : Nat) : Except Exc (Option Bytes) :=
  if (p.lsnToOffset lsn).1 = 0 then .ok none
  else
    match p.getPage file (p.lsnToOffset lsn).1 with
    | .error e => .error e
    | .ok none => .ok none
    | .ok (some page) =>
      match page.recordAt (p.lsnToOffset lsn).2 p.recordHeaderLength with
      | .ok record => .ok (some record)
      | .error e => if isLogFileException e then .ok none else .error e

/-- dfir_ntfs/LogFile.py:810-835, the loop over the LSNs: which of them stay, and the new ones. -/
def Parser.validateLoop (p : Parser) (file : Bytes) : List Nat → List Nat → List Nat → Except Exc (List Nat × List Nat)
  | [], lsns, new => .ok (lsns, new)
  | lsn :: rest, lsns, new =>
    match p.recordOf file lsn with
    | .error e => .error e
    | .ok none => p.validateLoop file rest (lsns.erase lsn) new
    | .ok (some r) =>
      p.validateLoop file rest (if lsn ≠ thisLsn r then lsns.erase lsn else lsns)         -- 828-829
        (setAdd (setAdd new (clientPreviousLsn r)) (clientUndoNextLsn r))                 -- 831-835

/-- dfir_ntfs/LogFile.py:838-857: which of the new LSNs stay. -/
def Parser.validateNew (p : Parser) (file : Bytes) : List Nat → List Nat → Except Exc (List Nat)
  | [], new => .ok new
  | lsn :: rest, new =>
    match p.recordOf file lsn with
    | .error e => .error e
    | .ok none => p.validateNew file rest (new.erase lsn)
    | .ok (some r) => p.validateNew file rest (if lsn ≠ thisLsn r then new.erase lsn else new)

/-- dfir_ntfs/LogFile.py:893-899, 914-920, 940-946, 954-960 and 986-994: does the page have a record with
this LSN at the offset? -/
def Parser.candidateOn (p : Parser) (page : LogRecordPage) (offset lsn : Nat) : Except Exc (Option Nat) :=
  match page.recordAt offset p.recordHeaderLength with
  | .ok record => .ok (if thisLsn record = lsn then some lsn else none)
  | .error e => if isLogFileException e then .ok none else .error e

/-- dfir_ntfs/LogFile.py:893-899, 914-920, 940-946, 954-960 and 986-994: The same for a page number. -/
def Parser.candidate (p : Parser) (file : Bytes) (number offset lsn : Nat) : Except Exc (Option Nat) :=
  match p.getPage file number with
  | .error e => .error e
  | .ok none => .ok none
  | .ok (some page) => p.candidateOn page offset lsn

/-- dfir_ntfs/LogFile.py:888-994: The second try is only made when the first gives nothing. -/
def orElse (a : Except Exc (Option Nat)) (b : Except Exc (Option Nat)) : Except Exc (Option Nat) :=
  match a with
  | .ok none => b
  | r => r

/-- dfir_ntfs/LogFile.py:888-920: the next record when the data of the record is inside its page. -/
def Parser.nextAfterShort (p : Parser) (file : Bytes) (seqnum n offset len : Nat) (page : LogRecordPage) :
    Except Exc (Option Nat) :=
  let o := offset + p.recordHeaderLength + len
  orElse (p.candidateOn page o (p.offsetToLsn n o seqnum))                                -- 890-899
    (if (n + 1) * p.logPageSize ≥ p.fileSize then                                         -- 907
      match p.wrappedPage with
      | .error e => .error e
      | .ok w => p.candidate file w p.logPageDataOffset (p.offsetToLsn w p.logPageDataOffset (seqnum + 1))
    else p.candidate file (n + 1) p.logPageDataOffset (p.offsetToLsn (n + 1) p.logPageDataOffset seqnum))

/-- dfir_ntfs/LogFile.py:948-960: the last try, at the beginning of the next page. -/
def Parser.nextTwoTries (p : Parser) (file : Bytes) (seqnum m o : Nat) : Except Exc (Option Nat) :=
  orElse (p.candidate file m o (p.offsetToLsn m o seqnum))
    (p.candidate file (m + 1) p.logPageDataOffset (p.offsetToLsn (m + 1) p.logPageDataOffset seqnum))

/-- dfir_ntfs/LogFile.py:922-960: the next record when the data of the record is in several pages
(`left` bytes of it are not in the first one).  The page number after a wrap (934-936) is
`wrapped + (skip - 1) - (fileSize // pageSize - (n + 1))`, which is `wrapped + (n + skip) -
fileSize // pageSize`, and this is not negative. -/
def Parser.nextAfterLong (p : Parser) (file : Bytes) (seqnum n left : Nat) : Except Exc (Option Nat) :=
  let skip := 1 + left / (p.logPageSize - p.logPageDataOffset)                            -- 925
  let o := p.logPageDataOffset + left - (skip - 1) * (p.logPageSize - p.logPageDataOffset) -- 929
  if (n + skip) * p.logPageSize ≥ p.fileSize then                                         -- 933
    match p.wrappedPage with
    | .error e => .error e
    | .ok w => p.nextTwoTries file (seqnum + 1) (w + (n + skip) - p.fileSize / p.logPageSize) o
  else p.nextTwoTries file seqnum (n + skip) o

/-- dfir_ntfs/LogFile.py:866-963 `find_next_lsn(current_lsn)`; `outer` is the variable `lsn` of the
enclosing loop, which line 886 reads.  (When the record is found, its header is inside the page, so
`len(data) <= page size - offset - header length` does not involve a negative number; the page data
offset is not larger than the offset, so the division is not by zero.) -/
def Parser.findNextLsn (p : Parser) (file : Bytes) (outer current : Nat) : Except Exc (Option Nat) :=
  if (p.lsnToOffset current).1 = 0 then .ok none
  else
    match p.getPage file (p.lsnToOffset current).1 with
    | .error e => .error e
    | .ok none => .ok none
    | .ok (some page) =>
      match page.recordAt (p.lsnToOffset current).2 p.recordHeaderLength with
      | .error e => if isLogFileException e then .ok none else .error e
      | .ok record =>
        if clientDataLength record < 8 ∨ clientDataLength record % 8 ≠ 0 then .ok none     -- 883
        else if clientDataLength record ≤ p.logPageSize - (p.lsnToOffset current).2 - p.recordHeaderLength then  -- 888
          p.nextAfterShort file (p.lsnToSeqnum outer) (p.lsnToOffset current).1 (p.lsnToOffset current).2
            (clientDataLength record) page
        else
          p.nextAfterLong file (p.lsnToSeqnum outer) (p.lsnToOffset current).1
            (clientDataLength record - (p.logPageSize - (p.lsnToOffset current).2 - p.recordHeaderLength))

/-- dfir_ntfs/LogFile.py:981-995 and 1013-1027: is there a record with this LSN? -/
def Parser.linked (p : Parser) (file : Bytes) (lsn : Nat) : Except Exc (Option Nat) :=
  if (p.lsnToOffset lsn).1 = 0 then .ok none
  else p.candidate file (p.lsnToOffset lsn).1 (p.lsnToOffset lsn).2 lsn

/-- dfir_ntfs/LogFile.py:965-995 `find_previous_lsn`. -/
def Parser.findPreviousLsn (p : Parser) (file : Bytes) (current : Nat) : Except Exc (Option Nat) :=
  match p.recordOf file current with
  | .error e => .error e
  | .ok none => .ok none
  | .ok (some record) => p.linked file (clientPreviousLsn record)

/-- dfir_ntfs/LogFile.py:997-1027 `find_undo_next_lsn`. -/
def Parser.findUndoNextLsn (p : Parser) (file : Bytes) (current : Nat) : Except Exc (Option Nat) :=
  match p.recordOf file current with
  | .error e => .error e
  | .ok none => .ok none
  | .ok (some record) => p.linked file (clientUndoNextLsn record)

/-- dfir_ntfs/LogFile.py:1034-1040 (and five more times): walk from an LSN until a known one is met. -/
def walk (step : Nat → Except Exc (Option Nat)) : Nat → Nat → List Nat → Option (Except Exc (List Nat))
  | 0, _, _ => none
  | fuel + 1, current, lsns =>
    match step current with
    | .error e => some (.error e)
    | .ok none => some (.ok lsns)
    | .ok (some next) => if next ∈ lsns then some (.ok lsns) else walk step fuel next (next :: lsns)

/-- dfir_ntfs/LogFile.py:1031-1040, 1043-1052 and 1055-1064: walk from every LSN of the list (a copy of
the set at the beginning). -/
def walkAll (step : Nat → Nat → Except Exc (Option Nat)) (fuel : Nat) : List Nat → List Nat → Option (Except Exc (List Nat))
  | [], lsns => some (.ok lsns)
  | lsn :: rest, lsns =>
    match walk (step lsn) fuel lsn lsns with
    | none => none
    | some (.error e) => some (.error e)
    | some (.ok lsns) => walkAll step fuel rest lsns

/-- What `collect_lsns` adjusts in the parser (dfir_ntfs/LogFile.py:717-718, 1078-1091); `use_dumps`
does not exist before the first assignment. -/
structure Config where
  clusterSize : Nat
  useDumps : Option Bool
  oatVersion : Nat
  deriving DecidableEq

/-- dfir_ntfs/LogFile.py:1077-1091 for one NTFS restart area. -/
def Config.adjust (c : Config) (area : Bytes) : Config where
  clusterSize :=
    match bytesPerCluster area with
    | none => c.clusterSize
    | some n => if n > 0 ∧ n % 512 = 0 then n else c.clusterSize
  useDumps := some (!decide (areaMajorVersion area ≥ 2))
  oatVersion := if areaMajorVersion area ≥ 1 then 1 else 0

/-- dfir_ntfs/LogFile.py:1093-1097: the LSNs recorded by an NTFS restart area. -/
def areaLsns (area : Bytes) : List Nat :=
  [startOfCheckpointLsn area, openAttributeTableLsn area, attributeNamesLsn area, dirtyPageTableLsn area,
    transactionTableLsn area]

/-- dfir_ntfs/LogFile.py:1067-1097: look for NTFS restart areas (`LfsClientRestart = 2`). -/
def Parser.areasLoop (p : Parser) (file : Bytes) (fuel : Nat) : List Nat → Config → List Nat →
    Option (Except Exc (Config × List Nat))
  | [], config, new => some (.ok (config, new))
  | lsn :: rest, config, new =>
    match p.getClientData file fuel lsn with
    | none => none
    | some (.error e) => some (.error e)
    | some (.ok data) =>
      if data.recordType = 2 then
        match data.decoded with
        | .ok (.restartArea area _) => p.areasLoop file fuel rest (config.adjust area) ((areaLsns area).foldl setAdd new)
        | .ok (.logRecord ..) => p.areasLoop file fuel rest config new
        | .error e => if e = .ClientException then p.areasLoop file fuel rest config new else some (.error e)
      else p.areasLoop file fuel rest config new

/-- dfir_ntfs/LogFile.py:1099-1145: the LSNs found in NTFS restart areas, with a walk of every kind. -/
def Parser.areaLsnsLoop (p : Parser) (file : Bytes) (fuel : Nat) : List Nat → List Nat → Option (Except Exc (List Nat))
  | [], lsns => some (.ok lsns)
  | lsn :: rest, lsns =>
    match p.recordOf file lsn with
    | .error e => some (.error e)
    | .ok none => p.areaLsnsLoop file fuel rest lsns
    | .ok (some r) =>
      if lsn = thisLsn r then
        match walk (p.findNextLsn file lsn) fuel lsn (setAdd lsns lsn) with
        | none => none
        | some (.error e) => some (.error e)
        | some (.ok lsns) =>
          match walk (p.findPreviousLsn file) fuel lsn lsns with
          | none => none
          | some (.error e) => some (.error e)
          | some (.ok lsns) =>
            match walk (p.findUndoNextLsn file) fuel lsn lsns with
            | none => none
            | some (.error e) => some (.error e)
            | some (.ok lsns) => p.areaLsnsLoop file fuel rest lsns
      else p.areaLsnsLoop file fuel rest lsns

/-- dfir_ntfs/LogFile.py:1030-1147: the second part of `collect_lsns`, from the validated LSNs on. -/
def Parser.extendLsns (p : Parser) (file : Bytes) (order : List Nat → List Nat) (fuel : Nat) (config : Config)
    (lsns : List Nat) : Option (Except Exc (Config × List Nat)) :=
  match walkAll (p.findNextLsn file) fuel (order lsns) lsns with                          -- 1031
  | none => none
  | some (.error e) => some (.error e)
  | some (.ok lsns) =>
    match walkAll (fun _ => p.findPreviousLsn file) fuel (order lsns) lsns with           -- 1043
    | none => none
    | some (.error e) => some (.error e)
    | some (.ok lsns) =>
      match walkAll (fun _ => p.findUndoNextLsn file) fuel (order lsns) lsns with         -- 1055
      | none => none
      | some (.error e) => some (.error e)
      | some (.ok lsns) =>
        match p.areasLoop file fuel (order lsns) config [] with                           -- 1069
        | none => none
        | some (.error e) => some (.error e)
        | some (.ok (config, new)) =>
          match p.areaLsnsLoop file fuel (order new) lsns with                            -- 1099
          | none => none
          | some (.error e) => some (.error e)
          | some (.ok lsns) => some (.ok (config, sortBy (fun x : Nat => (x : Int)) lsns)) -- 1147

/-- dfir_ntfs/LogFile.py:770-1147 `collect_lsns`: the adjusted configuration and the sorted list. -/
def Parser.collectLsns (p : Parser) (file : Bytes) (order : List Nat → List Nat) (fuel : Nat) (config : Config) :
    Option (Except Exc (Config × List Nat)) :=
  match p.firstLsns file with
  | .error e => some (.error e)
  | .ok first =>
    match p.validateLoop file (order (first.foldl setAdd [])) (first.foldl setAdd []) [] with   -- 810
    | .error e => some (.error e)
    | .ok (lsns, new) =>
      match p.validateNew file (order new) new with                                       -- 838
      | .error e => some (.error e)
      | .ok new => p.extendLsns file order fuel config (new.foldl setAdd lsns)            -- 860

/-! ### Grouping by client -/

/-- dfir_ntfs/LogFile.py:1159-1163: append to the list of a client, in the order in which Python keeps
the keys of a dictionary. -/
def addToClient (id lsn : Nat) : List (Nat × List Nat) → List (Nat × List Nat)
  | [] => [(id, [lsn])]
  | (k, v) :: rest => if k = id then (k, v ++ [lsn]) :: rest else (k, v) :: addToClient id lsn rest

/-- dfir_ntfs/LogFile.py:1154-1163, the loop of `sort_lsns`. -/
def Parser.sortLoop (p : Parser) (file : Bytes) : List Nat → List (Nat × List Nat) → Except Exc (List (Nat × List Nat))
  | [], acc => .ok acc
  | lsn :: rest, acc =>
    match p.getPage file (p.lsnToOffset lsn).1 with
    | .error e => .error e
    | .ok none => .error .AttributeError
    | .ok (some page) =>
      match page.recordAt (p.lsnToOffset lsn).2 p.recordHeaderLength with
      | .error e => .error e
      | .ok record => p.sortLoop file rest (addToClient (clientId record) lsn acc)

/-- dfir_ntfs/LogFile.py:1149-1166 `sort_lsns`. -/
def Parser.sortLsns (p : Parser) (file : Bytes) (lsns : List Nat) : Except Exc (List (Nat × List Nat)) :=
  match p.sortLoop file lsns [] with
  | .error e => .error e
  | .ok groups => .ok (groups.map fun g => (g.1, sortBy (fun x : Nat => (x : Int)) g.2))

end Verif.LogFile
