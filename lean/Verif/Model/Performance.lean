import Verif.Model.Explain

/-!
Model of the program `/repo/performance/main.cpp`, which measures how fast reports are parsed and lists the
errors and the groups not recognised.

Simplifications. What the program prints is a value. The clock, the test data compiled into the program and
the sizes of the data types are parameters (`Env`). Files are a map from names to contents (`Disk`); a file
can always be created and written, text written is seen by whoever reads the file afterwards, and a file being
read keeps its contents meanwhile. `uint64_t` and `size_t` counters of reports and groups are `Nat`, those of
microseconds are reduced modulo 2^64.
-/

namespace Metaf.Performance

open Metaf

variable [FloatSem]

/-- How the program may fail. -/
inductive Failure
  /-- A fault within the library. -/
  | library (f : Fault)
  /-- The exception for a file which cannot be opened, main.cpp:319. -/
  | cannotOpen
  /-- `back()` of an empty string, main.cpp:438. Undefined behaviour. -/
  | emptyString
  /-- An integer is divided by zero, main.cpp:246, 365 and 629. Undefined behaviour. -/
  | divisionByZero
  /-- An argument is read behind its end, main.cpp:840. Undefined behaviour. -/
  | behindArgument
  /-- The exception of `at`, main.cpp:511, 523, 607 to 610 and 695. -/
  | outOfRange
  /-- A loop over batches is not left within the number of iterations granted to the model. -/
  | timeout
  deriving DecidableEq, Repr

/-- Result of a part of the program. -/
abbrev Run (α : Type) := Except Failure α

/-- A call of the library. -/
def call {α : Type} : Res α → Run α
  | .ok a => .ok a
  | .error f => .error (.library f)

/-- Contents of the files, by name. -/
abbrev Disk := Str → Option Str

/-- A file gets new contents. -/
def Disk.set (d : Disk) (path text : Str) : Disk := fun p => if p = path then some text else d p

/-! ### Names -/

/-- `groupName`, main.cpp:44-114. -/
def groupName : Nat → Str
  | 0 => c!"KeywordGroup" | 1 => c!"LocationGroup" | 2 => c!"ReportTimeGroup" | 3 => c!"TrendGroup"
  | 4 => c!"WindGroup" | 5 => c!"VisibilityGroup" | 6 => c!"CloudGroup" | 7 => c!"WeatherGroup"
  | 8 => c!"TemperatureGroup" | 9 => c!"PressureGroup" | 10 => c!"RunwayStateGroup" | 11 => c!"SeaSurfaceGroup"
  | 12 => c!"MinMaxTemperatureGroup" | 13 => c!"PrecipitationGroup" | 14 => c!"LayerForecastGroup"
  | 15 => c!"PressureTendencyGroup" | 16 => c!"CloudTypesGroup" | 17 => c!"LowMidHighCloudGroup"
  | 18 => c!"LightningGroup" | 19 => c!"VicinityGroup" | 20 => c!"MiscGroup" | 21 => c!"UnknownGroup"
  | _ => c!"UNDEFINED"

/-- `reportPartName`, main.cpp:116-124. -/
def reportPartName : ReportPart → Str
  | .UNKNOWN => c!"unknown"
  | .HEADER => c!"header"
  | .METAR => c!"metar"
  | .TAF => c!"taf"
  | .RMK => c!"remark"

/-- `reportPartIndex`, main.cpp:126-134. -/
def reportPartIndex : ReportPart → Nat
  | .UNKNOWN => 0
  | .HEADER => 1
  | .METAR => 2
  | .TAF => 3
  | .RMK => 4

/-- `reportPartFromName`, main.cpp:136-143. -/
def reportPartFromName (name : Str) : Option ReportPart :=
  if name = c!"unknown" then some .UNKNOWN
  else if name = c!"header" then some .HEADER
  else if name = c!"metar" then some .METAR
  else if name = c!"taf" then some .TAF
  else if name = c!"remark" then some .RMK
  else none

/-- `reportPartFromIndex`, main.cpp:145-154. -/
def reportPartFromIndex : Nat → Option ReportPart
  | 0 => some .UNKNOWN
  | 1 => some .HEADER
  | 2 => some .METAR
  | 3 => some .TAF
  | 4 => some .RMK
  | _ => none

/-- `reportErrorName`, main.cpp:156-203. -/
def reportErrorName : ReportError → Str
  | .NONE => c!"no error"
  | .EMPTY_REPORT => c!"empty report"
  | .EXPECTED_REPORT_TYPE_OR_LOCATION => c!"expected report_type_or_location"
  | .EXPECTED_LOCATION => c!"expected location"
  | .EXPECTED_REPORT_TIME => c!"expected report time"
  | .EXPECTED_TIME_SPAN => c!"expected time span"
  | .UNEXPECTED_REPORT_END => c!"unexpected report end"
  | .UNEXPECTED_GROUP_AFTER_NIL => c!"unexpected group after NIL"
  | .UNEXPECTED_GROUP_AFTER_CNL => c!"unexpected group after CNL"
  | .UNEXPECTED_NIL_OR_CNL_IN_REPORT_BODY => c!"unexpected NIL or CNL in report body"
  | .AMD_ALLOWED_IN_TAF_ONLY => c!"unexpected AMD in non TAF report"
  | .CNL_ALLOWED_IN_TAF_ONLY => c!"unexpected CNL in non TAF report"
  | .MAINTENANCE_INDICATOR_ALLOWED_IN_METAR_ONLY => c!"unexpected maintenance indicator in TAF report"
  | .REPORT_TOO_LARGE => c!"report too large"

/-- `reportPartSize`, main.cpp:205. -/
def reportPartSize : Nat := 5

/-- `variant_size_v<metaf::Group>`, main.cpp:467 and 486. -/
def groupSize : Nat := 22

/-! ### std::map with strings as keys -/

/-- `operator<` of `std::string`. -/
def strLt : Str → Str → Bool
  | _, [] => false
  | [], _ :: _ => true
  | a :: s, b :: t => a.toNat < b.toNat || (a.toNat == b.toNat && strLt s t)

/-- `std::map<string, V>`: its elements in the order of the keys. -/
abbrev Map (V : Type) := List (Str × V)

/-- The reference `stats[key]` is changed by `f`; a missing element is created with `init` first.
Used at main.cpp:213, 214 and 361. -/
def Map.update {V : Type} (init : V) (f : V → V) (key : Str) : Map V → Map V
  | [] => [(key, f init)]
  | (k, v) :: m =>
    if strLt key k then (key, f init) :: (k, v) :: m
    else if strLt k key then (k, v) :: Map.update init f key m
    else (k, f v) :: m

/-- `stats.count(key)` and `stats.at(key)`, main.cpp:233, 237 and 242. -/
def Map.get? {V : Type} (key : Str) (m : Map V) : Option V := (m.find? fun e => e.1 == key).map Prod.snd

/-! ### PerformanceStats -/

/-- Range of `uint64_t`. -/
def uint64Range : Nat := 2 ^ 64

/-- `PerformanceStats::Data`, main.cpp:220-224. -/
structure Data where
  microsec : Nat := 0
  items : Nat := 0
  deriving DecidableEq, Repr

/-- `PerformanceStats::add`, main.cpp:212-215. -/
def Stats.add (name : Str) (microsec items : Nat) (stats : Map Data) : Map Data :=
  Map.update {} (fun d => ⟨(d.microsec + microsec) % uint64Range, d.items + items⟩) name stats

/-- The lambda `quantity`, main.cpp:229-232. -/
def quantity (itemname : Str) (n : Nat) : Str :=
  if n = 0 then c!"<1 " ++ itemname
  else Explain.showNat n ++ c!" " ++ itemname ++ if n > 1 then c!"s" else []

/-- `PerformanceStats::print` for one name, main.cpp:228-248. -/
def Stats.print (name : Str) (stats : Map Data) : Run Str :=
  match Map.get? name stats with
  | none => .ok (c!"No performance stats exist for " ++ name ++ c!".\n")
  | some d =>
    if d.items = 0 then .ok (c!"No processed " ++ name ++ c!"s.\n")
    else if d.microsec = 0 then .error .divisionByZero
    else .ok (quantity c!"microsecond" d.microsec ++ c!", " ++ quantity name d.items ++ c!", " ++
      quantity name (1000000 * d.items % uint64Range / d.microsec) ++ c!" per second.\n")

/-- `PerformanceStats::print` for all names, main.cpp:250-254. -/
def Stats.printAll (stats : Map Data) : Run Str :=
  (stats.mapM fun e => Stats.print e.1 stats).map List.flatten

/-! ### BatchProcess -/

/-- `getline(in, s, delimiter)` for a stream with the given text left: the text read and the text left, or
failure. A last line needs no delimiter. Used at main.cpp:340 and 721. -/
def getline (delimiter : Char) : Str → Option (Str × Str)
  | [] => none
  | c :: text =>
    if c = delimiter then some ([], text)
    else match getline delimiter text with
      | none => some ([c], [])
      | some (s, rest) => some (c :: s, rest)

/-- `BatchFromMemory`, `BatchFromTestdataReal` and `BatchFromFile`, main.cpp:267-333. `file` has the batch
loaded, the text not yet read and the size of a batch. The total size is a separate function. -/
inductive Batch
  | memory (loadedBatch : List Str)
  | testdata (loadedBatch : List Str) (repetitionsLeft : Nat)
  | file (loadedBatch : List Str) (rest : Str) (batchSize : Nat)
  deriving DecidableEq, Repr

/-- The loop of `BatchFromFile::nextBatch`, main.cpp:338-342: the lines read, the text left and whether all
lines of the batch could be read. -/
def fill : Nat → Str → List Str × Str × Bool
  | 0, rest => ([], rest, true)
  | n + 1, rest =>
    match getline '\n' rest with
    | none => ([], rest, false)
    | some (s, rest) => let r := fill n rest; (s :: r.1, r.2.1, r.2.2)

/-- `getCurrentBatch`, main.cpp:272-275 and 323. -/
def Batch.current : Batch → List Str
  | memory b => b
  | testdata b _ => b
  | file b _ _ => b

/-- `nextBatch`, main.cpp:276, 287-291 and 335-344. The file is open whenever it is called. -/
def Batch.next : Batch → Batch × Bool
  | memory b => (memory b, false)
  | testdata b n => let left := n - 1; (testdata b left, left != 0)
  | file _ rest size => let r := fill size rest; (file r.1 r.2.1 size, r.2.2)

/-- The constructor of `BatchFromFile`, main.cpp:318-322. -/
def Batch.fromFile (disk : Disk) (path : Str) (size : Nat) : Run Batch :=
  match disk path with
  | none => .error .cannotOpen
  | some text => .ok (file [] text size).next.1

/-- `BatchFromTestdataReal::getReports`, main.cpp:306-313. -/
def getReports (data : List (Str × Str)) : List Str :=
  data.flatMap fun d => (if d.1.isEmpty then [] else [d.1]) ++ if d.2.isEmpty then [] else [d.2]

/-- The batches seen by a loop `do { ... } while (src->nextBatch())`, main.cpp:375-379, 407-411, 577-592 and
690-705. The loops do not change the source in another way. -/
def Batch.seen : Nat → Batch → Run (List (List Str))
  | 0, _ => .error .timeout
  | fuel + 1, b =>
    if b.next.2 then (Batch.seen fuel b.next.1).map (b.current :: ·) else .ok [b.current]

/-- A number of iterations after which the loops have ended. -/
def Batch.bound : Batch → Nat
  | memory _ => 1
  | testdata _ n => n + 1
  | file _ rest _ => rest.length + 1

/-- All batches seen by a loop over a source. -/
def Batch.all (b : Batch) : Run (List (List Str)) := b.seen b.bound

/-- `BatchFromFile::totalSize`, main.cpp:346-353, for the contents of the file. -/
def fileTotalSize (text : Str) : Nat := text.count '\n'

/-! ### FrequencyStats -/

/-- `FrequencyStats::add` for a string, main.cpp:360-362. -/
def Frequency.add (stats : Map Nat) (s : Str) : Map Nat := Map.update 0 (· + 1) s stats

/-- `FrequencyStats::add` for a source, main.cpp:374-380. -/
def Frequency.addAll (src : Batch) (stats : Map Nat) : Run (Map Nat) :=
  src.all.map fun bs => bs.foldl (fun m b => b.foldl Frequency.add m) stats

/-- `FrequencyStats::compensateRepetitions`, main.cpp:364-368. -/
def Frequency.compensateRepetitions (repetitions : Nat) (stats : Map Nat) : Run (Map Nat) :=
  if stats.isEmpty then .ok stats
  else if repetitions = 0 then .error .divisionByZero
  else .ok (stats.map fun e => (e.1, e.2 / repetitions))

/-- `multimap::insert`, main.cpp:385: behind the elements with the same key. -/
def multimapInsert (e : Nat × Str) : List (Nat × Str) → List (Nat × Str)
  | [] => [e]
  | x :: xs => if e.1 < x.1 then e :: x :: xs else x :: multimapInsert e xs

/-- The order of the lines of `printDescending`, main.cpp:383-388. -/
def Frequency.descending (stats : Map Nat) : List (Nat × Str) :=
  (stats.foldl (fun m e => multimapInsert (e.2, e.1) m) []).reverse

/-- `FrequencyStats::printDescending`, main.cpp:382-390. -/
def Frequency.printDescending (stats : Map Nat) : Str :=
  (Frequency.descending stats).flatMap fun e => Explain.showNat e.1 ++ c!": " ++ e.2 ++ c!"\n"

/-! ### Archive -/

/-- `ArchiveToMemory` and `ArchiveToFile`, main.cpp:414-453. -/
inductive Archive
  | memory (storage : List Str)
  | file (outFilePath : Str) (count : Nat)
  deriving DecidableEq, Repr

/-- The constructor of `ArchiveToFile`, main.cpp:431-435: the file is made empty. -/
def Archive.create (path : Str) (disk : Disk) : Disk × Archive := (disk.set path [], file path 0)

/-- `add`, main.cpp:417 and 436-442. -/
def Archive.add (disk : Disk) (a : Archive) (s : Str) : Run (Disk × Archive) :=
  match a with
  | memory storage => .ok (disk, memory (storage ++ [s]))
  | file path count =>
    match s.getLast? with
    | none => .error .emptyString
    | some c => .ok (disk.set path ((disk path).getD [] ++ s ++ if c ≠ '\n' then c!"\n" else []), file path (count + 1))

/-- `getBatchProcess`, main.cpp:418-421 and 443-446. -/
def Archive.getBatchProcess (disk : Disk) (a : Archive) (desiredSize : Nat) : Run Batch :=
  match a with
  | memory storage => .ok (.memory storage)
  | file path _ => Batch.fromFile disk path desiredSize

/-- `size`, main.cpp:422 and 447. -/
def Archive.size : Archive → Nat
  | memory storage => storage.length
  | file _ count => count

/-- `Archive::print`, main.cpp:404-412. -/
def Archive.print (disk : Disk) (a : Archive) : Run Str := do
  let bp ← a.getBatchProcess disk 1000
  let bs ← bp.all
  .ok (bs.flatten.flatMap fun record => record ++ c!"\n")

/-! ### Archiver -/

/-- `Archiver`, main.cpp:457-478. -/
structure Archiver where
  archives : List Archive
  errorReports : Archive
  deriving DecidableEq, Repr

/-- `Archiver::groupIndex`, main.cpp:473-475. -/
def groupIndex (group part : Nat) : Nat := group * reportPartSize + part

/-- The name of the file for a kind of group and a part of the report, main.cpp:491-492. -/
def archiveName (group : Nat) (part : ReportPart) : Str :=
  groupName group ++ c!"-" ++ reportPartName part ++ c!".txt"

/-- The parts of a report in the order of their indices. -/
def parts : List ReportPart := [.UNKNOWN, .HEADER, .METAR, .TAF, .RMK]

/-- The names of the files for groups in the order of the array, main.cpp:486-492. The element with index
`groupIndex(i, j)` is assigned when the loops have come to `i` and `j`, hence the array is filled in order. -/
def archiveNames : List Str := (List.range groupSize).flatMap fun i => parts.map fun p => archiveName i p

/-- The name of the file for reports with errors, main.cpp:506. -/
def errorFile : Str := c!"reportError"

/-- `Archiver::makeGroupArchives`, main.cpp:485-499, the loops with files. -/
def makeFiles (disk : Disk) : List Str → Disk × List Archive
  | [] => (disk, [])
  | name :: names =>
    let r := Archive.create name disk
    let s := makeFiles r.1 names
    (s.1, r.2 :: s.2)

/-- The constructor of `Archiver`, main.cpp:480-507. -/
def Archiver.make (files : Bool) (disk : Disk) : Disk × Archiver :=
  if files then
    let r := makeFiles disk archiveNames
    let e := Archive.create errorFile r.1
    (e.1, ⟨r.2, e.2⟩)
  else (disk, ⟨List.replicate (groupSize * reportPartSize) (.memory []), .memory []⟩)

/-- `Archiver::addGroup`, main.cpp:509-512. -/
def Archiver.addGroup (disk : Disk) (a : Archiver) (groupInfo : GroupInfo) : Run (Disk × Archiver) :=
  let idx := groupIndex groupInfo.group.index (reportPartIndex groupInfo.reportPart)
  match a.archives[idx]? with
  | none => .error .outOfRange
  | some x => (x.add disk groupInfo.rawString).map fun r => (r.1, { a with archives := a.archives.set idx r.2 })

/-- `Archiver::addResult`, main.cpp:514-518. -/
def Archiver.addResult (disk : Disk) (a : Archiver) (result : ParseResult) : Run (Disk × Archiver) :=
  result.groups.foldlM (fun s gi => s.2.addGroup s.1 gi) (disk, a)

/-- `Archiver::getBatchGroup`, main.cpp:520-524. -/
def Archiver.getBatchGroup (disk : Disk) (a : Archiver) (index : Nat) (part : ReportPart) : Run Batch :=
  match a.archives[groupIndex index (reportPartIndex part)]? with
  | none => .error .outOfRange
  | some x => x.getBatchProcess disk 1000

/-- `Archiver::addErrorReport`, main.cpp:526-529. -/
def Archiver.addErrorReport (disk : Disk) (a : Archiver) (e : ReportError) (report : Str) : Run (Disk × Archiver) := do
  let r ← a.errorReports.add disk (reportErrorName e)
  let r ← r.2.add r.1 report
  .ok (r.1, { a with errorReports := r.2 })

/-- `Archiver::printErrorReports`, main.cpp:531-537, with the text for no errors, main.cpp:938-939. -/
def Archiver.printErrorReports (disk : Disk) (a : Archiver) : Run Str :=
  let s := a.errorReports.size
  if s = 0 then .ok c!"no report errors, all reports parsed successfully\n"
  else (a.errorReports.print disk).map fun t => c!"Reports with errors: " ++ Explain.showNat (s / 2) ++ c!"\n" ++ t

/-! ### ParserPerformanceTester -/

/-- What the program depends on. -/
structure Env where
  /-- The constant `wasm`, main.cpp:859-867. -/
  wasm : Bool
  /-- The files before the program is started. -/
  disk : Disk
  /-- `testdata::realDataSet`: pairs of METAR and TAF. -/
  data : List (Str × Str)
  /-- The time of the n-th measurement in microseconds, main.cpp:586-587 and 702-703, as `uint64_t`. -/
  clock : Nat → Nat
  /-- `sizeof` of the types named. -/
  sizeOf : Str → Nat

/-- The state of the program. `measured` is the number of measurements done. -/
structure State where
  disk : Disk
  archiver : Archiver
  stats : Map Data := []
  measured : Nat := 0
  reportCount : Nat := 0
  groupCount : Nat := 0
  out : Str := []

/-- The time measured next. -/
def State.microsec (env : Env) (st : State) : Nat := env.clock st.measured % uint64Range

/-- Text is printed. -/
def State.print (text : Str) (st : State) : State := { st with out := st.out ++ text }

/-- `ParserPerformanceTester::countGroups`, main.cpp:595-601. -/
def countGroups (results : List ParseResult) : Nat := (results.map fun r => r.groups.length).sum

/-- The body of the loop of `ParserPerformanceTester::toArchives`, main.cpp:608-611. -/
def archiveOne (s : Disk × Archiver) (r : ParseResult × Str) : Run (Disk × Archiver) :=
  (if r.1.reportMetadata.error ≠ .NONE then s.2.addErrorReport s.1 r.1.reportMetadata.error r.2 else .ok s).bind
    fun s => s.2.addResult s.1 r.1

/-- `ParserPerformanceTester::toArchives`, main.cpp:603-613. Results and reports are gone through together. -/
def toArchives (disk : Disk) (a : Archiver) (results : List (ParseResult × Str)) : Run (Disk × Archiver) :=
  results.foldlM archiveOne (disk, a)

/-- `ParserPerformanceTester::toStats`, main.cpp:615-624. -/
def toStats (results : List ParseResult) (microsec : Nat) (st : State) : State :=
  { st with
    stats := Stats.add c!"group" microsec (countGroups results) (Stats.add c!"report" microsec results.length st.stats)
    reportCount := st.reportCount + results.length
    groupCount := st.groupCount + countGroups results }

/-- `ParserPerformanceTester::verbosePrintBatch`, main.cpp:626-631. -/
def verbosePrintBatch (testSetSize : Nat) (st : State) : Run State :=
  if testSetSize = 0 then .error .divisionByZero
  else .ok (st.print (c!"Processed " ++ Explain.showNat st.reportCount ++ c!" reports of " ++
    Explain.showNat testSetSize ++ c!" (" ++ Explain.showNat (st.reportCount * 100 / testSetSize) ++ c!"%), " ++
    Explain.showNat st.groupCount ++ c!" groups parsed\n"))

/-- The body of the loop of `ParserPerformanceTester::test`, main.cpp:578-591. In the web version there is no
archive and nothing is printed, main.cpp:926-929. -/
def testBatch (env : Env) (testSetSize : Nat) (st : State) (batch : List Str) : Run State := do
  let results ← batch.mapM fun report => call (Parser.parse report)
  let st := { toStats results (st.microsec env) st with measured := st.measured + 1 }
  if env.wasm then .ok st
  else (toArchives st.disk st.archiver (results.zip batch)).bind fun r =>
    verbosePrintBatch testSetSize { st with disk := r.1, archiver := r.2 }

/-- `ParserPerformanceTester::test`, main.cpp:574-593. -/
def testReports (env : Env) (src : Batch) (testSetSize : Nat) (st : State) : Run State := do
  let bs ← src.all
  bs.foldlM (testBatch env testSetSize) { st with reportCount := 0, groupCount := 0 }

/-! ### GroupPerformanceTester -/

/-- `GroupPerformanceTester::makeDummyMetadata`, main.cpp:727-738. -/
def makeDummyMetadata (part : ReportPart) : ReportMetadata :=
  let metadata : ReportMetadata :=
    { type := .METAR, reportTime := some ⟨some 1, 0, 0⟩, icaoLocation := c!"ZZZZ" }
  if part = .TAF then
    { metadata with type := .TAF, timeSpanFrom := some ⟨some 1, 1, 0⟩, timeSpanUntil := some ⟨some 1, 13, 0⟩ }
  else metadata

/-- `GroupPerformanceTester::splitToGroups`, main.cpp:716-725. The number bounds the loop; it is never used up
since each turn takes a character. -/
def splitLoop : Nat → Str → List Str
  | 0, _ => []
  | fuel + 1, s =>
    match getline ' ' s with
    | none => []
    | some (group, rest) => group :: splitLoop fuel rest

/-- `GroupPerformanceTester::splitToGroups`, main.cpp:716-725. -/
def splitToGroups (s : Str) : List Str := splitLoop s.length s

/-- `GroupPerformanceTester::prepareBatch`, main.cpp:708-714. -/
def prepareBatch (src : List Str) : List (List Str) := (src.filter fun a => a.length ≠ 0).map splitToGroups

/-- What is measured for one group, main.cpp:694-699. -/
def parseAgain (part : ReportPart) (metadata : ReportMetadata) : List Str → Run Group
  | [] => .error .outOfRange
  | s :: rest => do
    let g ← call (GroupParser.parse s part metadata)
    rest.foldlM (fun g w => call ((g.append w part metadata).map Prod.fst)) g

/-- The body of the loop of `GroupPerformanceTester::testGroupReportPart`, main.cpp:691-704. -/
def testGroupBatch (env : Env) (index : Nat) (part : ReportPart) (st : State) (batch : List Str) : Run State := do
  let batch := prepareBatch batch
  let _ ← batch.mapM (parseAgain part (makeDummyMetadata part))
  .ok { st with stats := Stats.add (groupName index) (st.microsec env) batch.length st.stats
                measured := st.measured + 1 }

/-- `GroupPerformanceTester::testGroupReportPart`, main.cpp:685-706. -/
def testGroupReportPart (env : Env) (index : Nat) (st : State) (part : ReportPart) : Run State :=
  if index = 21 then .ok st
  else do
    let src ← st.archiver.getBatchGroup st.disk index part
    let bs ← src.all
    bs.foldlM (testGroupBatch env index part) st

/-- `GroupPerformanceTester::testGroupType`, main.cpp:676-683. -/
def testGroupType (env : Env) (st : State) (index : Nat) : Run State :=
  [ReportPart.UNKNOWN, .HEADER, .METAR, .TAF, .RMK].foldlM (testGroupReportPart env index)
    (st.print (c!"Testing " ++ groupName index ++ c!"\n"))

/-- The kinds of groups tested by `GroupPerformanceTester::test`, main.cpp:653-674: not the weather groups. -/
def testedGroups : List Nat := [0, 1, 2, 3, 4, 5, 6, 8, 9, 10, 11, 12, 13, 14, 15, 16, 17, 18, 19, 20]

/-- `GroupPerformanceTester::test`, main.cpp:653-674. -/
def testGroups (env : Env) (st : State) : Run State := testedGroups.foldlM (testGroupType env) st

/-- `printGroupStats`, main.cpp:742-765. -/
def printGroupStats (stats : Map Data) : Run Str :=
  ((List.range groupSize).mapM fun i => Stats.print (groupName i) stats).map List.flatten

/-- `printDataSize`, main.cpp:767-811. -/
def printDataSize (sizeOf : Str → Nat) : Str :=
  let printSize (name : Str) : Str := c!"Size of " ++ name ++ c!" " ++ Explain.showNat (sizeOf name) ++ c!"\n"
  c!"Data type sizes:\n" ++
  [c!"Runway", c!"MetafTime", c!"Temperature", c!"Speed", c!"Distance", c!"Direction", c!"Pressure",
    c!"Precipitation", c!"SurfaceFriction", c!"WaveHeight", c!"WeatherPhenomena", c!"CloudType"].flatMap printSize ++
  c!"\n" ++ printSize c!"Group" ++ c!"\n" ++ c!"Group sizes:\n" ++
  (List.range groupSize).flatMap (fun i => printSize (groupName i)) ++ c!"\n"

/-! ### The program -/

/-- `CommandLineParameters`, main.cpp:815-826. -/
structure CommandLineParameters where
  inputFile : Str := []
  help : Bool := false
  inputFromInternalTestData : Bool := true
  exportInternalTestData : Bool := false
  checkGroupPerformance : Bool := true
  printErrorReports : Bool := true
  printUnknownGroups : Bool := true
  printTestSetStats : Bool := true
  printDataSize : Bool := true
  deriving DecidableEq, Repr

/-- One turn of the loop over the arguments, main.cpp:831-837. -/
def setOption (result : CommandLineParameters) (arg : Str) : CommandLineParameters :=
  if arg = c!"--help" then { result with help := true }
  else if arg = c!"--expint" then { result with exportInternalTestData := true }
  else if arg = c!"--nogroups" then { result with checkGroupPerformance := false }
  else if arg = c!"--noerror" then { result with printErrorReports := false }
  else if arg = c!"--nounkn" then { result with printUnknownGroups := false }
  else if arg = c!"--nostats" then { result with printTestSetStats := false }
  else if arg = c!"--nosize" then { result with printDataSize := false }
  else result

/-- The character of an argument at an index: the one behind the last is the terminating zero, further ones
must not be read. -/
def argChar (arg : Str) (i : Nat) : Run Char :=
  match arg[i]? with
  | some c => .ok c
  | none => if i = arg.length then .ok '\x00' else .error .behindArgument

/-- `setCommandLineParameters`, main.cpp:828-845. `args` is `argv` without the name of the program. -/
def setCommandLineParameters (args : List Str) : Run CommandLineParameters :=
  let result := args.foldl setOption {}
  match args.getLast? with
  | none => .ok result
  | some last =>
    (argChar last 0).bind fun first =>
      if first = '-' then .ok result
      else (argChar last 1).bind fun second =>
        if second = '-' then .ok result
        else .ok { result with inputFile := last, inputFromInternalTestData := false }

/-- `setWasmParameters`, main.cpp:847-855. -/
def setWasmParameters : CommandLineParameters :=
  { checkGroupPerformance := false, printErrorReports := false, printUnknownGroups := false
    printTestSetStats := false, printDataSize := false }

/-- `inputBatchSize`, main.cpp:869. -/
def inputBatchSize : Nat := 64000

/-- `testDataRealRepetitions`, main.cpp:878. -/
def testDataRealRepetitions : Nat := 300

/-- The text of `--help`, main.cpp:884-896. -/
def helpText : Str :=
  c!"Usage: performance [options] [input_file]\n\n" ++
  c!"Input file must contain one METAR or TAF per line\n" ++
  c!"If input file is not specified the internal collection of test data is used\n\n" ++
  c!"Options:\n" ++
  c!"--help \t\tDisplay help and stop\n" ++
  c!"--expint \tExport contents of internal collection of test data and stop\n" ++
  c!"--nogroups\tDo not check group performance\n" ++
  c!"--noerror \tDo not display reports which parser failed to parse\n" ++
  c!"--nounkn \tDo not display groups which parser failed to recognise\n" ++
  c!"--nostats \tDo not display group statistics\n" ++
  c!"--nosize \tDo not display data size in memory\n"

/-- The name of the file exported, main.cpp:900. -/
def exportFile : Str := c!"testdatareal.txt"

/-- The text exported, main.cpp:903-908. -/
def exportText (data : List (Str × Str)) : Str :=
  data.flatMap (fun d => if d.1.isEmpty then [] else d.1 ++ c!"\n") ++
  data.flatMap (fun d => if d.2.isEmpty then [] else d.2 ++ c!"\n")

/-- The source of the reports and its size, main.cpp:917-924. The size of a file does not change while it is
read. -/
def openSource (env : Env) (disk : Disk) (params : CommandLineParameters) : Run (Batch × Nat) :=
  if params.inputFromInternalTestData then
    let reports := getReports env.data
    .ok (.testdata reports testDataRealRepetitions, reports.length * testDataRealRepetitions)
  else do
    let src ← Batch.fromFile disk params.inputFile inputBatchSize
    .ok (src, fileTotalSize ((disk params.inputFile).getD []))

/-- The check of the reports, main.cpp:914-934. -/
def checkReports (env : Env) (params : CommandLineParameters) (st : State) : Run State := do
  let st := st.print (c!"Checking overall parser performance\n" ++
    if params.inputFromInternalTestData then c!"Using internal data set\n"
    else c!"Using data set from file " ++ params.inputFile ++ c!"\n")
  let (src, size) ← openSource env st.disk params
  let st := st.print (c!"Test set size is " ++ Explain.showNat size ++ c!"\n")
  let st ← testReports env src size st
  let r ← Stats.print c!"report" st.stats
  let g ← Stats.print c!"group" st.stats
  .ok (st.print (c!"\n" ++ r ++ g ++ c!"\n"))

/-- The statistics of groups not recognised, main.cpp:945-952. -/
def unknownStats (st : State) (params : CommandLineParameters) : Run (Map Nat) := do
  let stats ← [ReportPart.UNKNOWN, .HEADER, .METAR, .TAF, .RMK].foldlM (fun stats part =>
    (st.archiver.getBatchGroup st.disk 21 part).bind fun src => Frequency.addAll src stats) []
  if params.inputFromInternalTestData then Frequency.compensateRepetitions testDataRealRepetitions stats
  else .ok stats

/-- The list of errors, main.cpp:936-941. -/
def listErrors (st : State) : Run State := do
  let t ← st.archiver.printErrorReports st.disk
  .ok (st.print (c!"Reports not recognised by the parser:\n" ++ t ++ c!"\n"))

/-- The list of groups not recognised, main.cpp:943-956. -/
def listUnknown (params : CommandLineParameters) (st : State) : Run State := do
  let stats ← unknownStats st params
  .ok (st.print (c!"Groups not recognised by the parser (by occurrence number):\n" ++
    Frequency.printDescending stats ++ c!"\n"))

/-- The check of the groups, main.cpp:958-967. -/
def checkGroups (env : Env) (st : State) : Run State := do
  let st ← testGroups env (st.print c!"Checking group performance\n")
  let t ← printGroupStats st.stats
  .ok (st.print (c!"\n" ++ t ++ c!"\n"))

/-- A step which is taken only if asked for, main.cpp:936, 943 and 958. -/
def stepIf (asked : Bool) (step : State → Run State) (st : State) : Run State := if asked then step st else .ok st

/-- `main`, main.cpp:871-979: what is printed, and the files afterwards. -/
def main (env : Env) (args : List Str) : Run (Str × Disk) := do
  let params ← setCommandLineParameters args
  let params := if env.wasm then setWasmParameters else params
  let a := Archiver.make (!params.inputFromInternalTestData) env.disk
  let st : State := { disk := a.1, archiver := a.2 }
  if params.help then .ok (helpText, st.disk)
  else if params.exportInternalTestData then
    .ok (c!"Exporting internal test data to " ++ exportFile ++ c!"\n" ++ c!"Internal test data export complete\n\n",
      st.disk.set exportFile (exportText env.data))
  else
    let st ← checkReports env params st
    let st ← stepIf params.printErrorReports listErrors st
    let st ← stepIf params.printUnknownGroups (listUnknown params) st
    let st ← stepIf params.checkGroupPerformance (checkGroups env) st
    let st := if params.printDataSize then st.print (printDataSize env.sizeOf) else st
    .ok (st.out, st.disk)

end Metaf.Performance
