import Verif.Proofs.PerformanceMain
import Verif.Proofs.Util
import Verif.Ieee

/-!
The program which checks the performance: C115 to C122.
-/

namespace Metaf.Props

open Metaf Metaf.Spec Metaf.Performance

variable [FloatIeee]

/-- A run for the examples: reports in a file, every measurement takes 5 microseconds. -/
def exampleEnv : Env where
  wasm := false
  disk := fun n => if n = c!"reports.txt" then
    some c!"METAR EGLL 041115Z 24008KT FOO Q1013\nEGLL\nTAF EGLL 041100Z 0412/0512 24008KT FOO\n" else none
  data := [(c!"METAR EGLL 041115Z 24008KT FOO", []), ([], c!"TAF EGLL 041100Z 0412/0512 24008KT FOO")]
  clock := fun _ => 5
  sizeOf := fun s => s.length

/-! ### C115 -/

/-- The options with an effect. -/
def optionNames : List Str := [c!"--help", c!"--expint", c!"--nogroups", c!"--noerror", c!"--nounkn", c!"--nosize"]

omit [FloatIeee] in
theorem params_file {args : List Str} {p : CommandLineParameters} (h : setCommandLineParameters args = .ok p)
    (hi : inputFile args = none) : p.inputFile = [] := by
  have ho := (setOptions {} args).file
  rw [setCommandLineParameters] at h
  cases hg : args.getLast? with
  | none =>
    rw [hg] at h
    rw [← Except.ok.inj h]
    exact ho
  | some last =>
    rw [hg] at h
    rw [inputFile, hg] at hi
    cases last with
    | nil => simp at hi
    | cons a last =>
      have e0 : argChar (a :: last) 0 = .ok a := rfl
      simp only [e0, Except.bind] at h
      by_cases ha : a = '-'
      · rw [if_pos ha] at h
        rw [← Except.ok.inj h]
        exact ho
      · rw [if_neg ha] at h
        cases last with
        | nil => simp [ha] at hi
        | cons b last =>
          have e1 : argChar (a :: b :: last) 1 = .ok b := rfl
          simp only [e1] at h
          by_cases hb : b = '-'
          · rw [if_pos hb] at h
            rw [← Except.ok.inj h]
            exact ho
          · simp [ha, hb] at hi

/-- C115 in part. What the program does depends on the arguments only by the options which occur and by the input
file: the order of options, repetitions, other arguments and `--nostats` have no effect. Missing: a file whose
name has `-` as second character is not taken for the input file; see `C115_violated`. -/
theorem C115_arguments_partial {env : Env} {args args' : List Str} (hl : args.getLast? ≠ some [])
    (hl' : args'.getLast? ≠ some []) (ho : ∀ o ∈ optionNames, o ∈ args ↔ o ∈ args')
    (hi : inputFile args = inputFile args') : main env args = main env args' := by
  obtain ⟨p, h1, h2⟩ := setParameters hl
  obtain ⟨p', h1', h2'⟩ := setParameters hl'
  have hf : p.inputFile = p'.inputFile := by
    cases hn : inputFile args with
    | none => rw [params_file h1 hn, params_file h1' (by rw [← hi, hn])]
    | some name => rw [h2.asks.file name hn, h2'.asks.file name (by rw [← hi, hn])]
  have hd : ∀ o ∈ optionNames, decide (o ∈ args) = decide (o ∈ args') := fun o h => decide_eq_decide.mpr (ho o h)
  have hp : p' = { p with printTestSetStats := p'.printTestSetStats } := by
    have e1 : p'.help = p.help := by rw [h2.help, h2'.help, hd _ (by simp [optionNames])]
    have e2 : p'.exportInternalTestData = p.exportInternalTestData := by
      rw [h2.exporting, h2'.exporting, hd _ (by simp [optionNames])]
    have e3 : p'.checkGroupPerformance = p.checkGroupPerformance := by
      rw [h2.groups, h2'.groups, hd _ (by simp [optionNames])]
    have e4 : p'.printErrorReports = p.printErrorReports := by
      rw [h2.errors, h2'.errors, hd _ (by simp [optionNames])]
    have e5 : p'.printUnknownGroups = p.printUnknownGroups := by
      rw [h2.unknown, h2'.unknown, hd _ (by simp [optionNames])]
    have e6 : p'.printDataSize = p.printDataSize := by rw [h2.size, h2'.size, hd _ (by simp [optionNames])]
    have e7 : p'.inputFromInternalTestData = p.inputFromInternalTestData := by
      rw [h2.asks.internal, h2'.asks.internal, hi]
    obtain ⟨a1, a2, a3, a4, a5, a6, a7, a8, a9⟩ := p
    obtain ⟨b1, b2, b3, b4, b5, b6, b7, b8, b9⟩ := p'
    simp only at *
    subst hf e1 e2 e3 e4 e5 e6 e7
    rfl
  simp only [main, h1, h1', bind, Except.bind]
  rw [hp]
  cases env.wasm
  · have e1 : checkReports env { p with printTestSetStats := p'.printTestSetStats } = checkReports env p := rfl
    have e2 : listUnknown { p with printTestSetStats := p'.printTestSetStats } = listUnknown p := rfl
    simp only [Bool.false_eq_true, if_false, e1, e2]
  · simp only [if_true]

example : main exampleEnv [c!"--nosize", c!"--nostats", c!"x", c!"--noerror", c!"reports.txt"] =
    main exampleEnv [c!"--noerror", c!"--nosize", c!"--noerror", c!"reports.txt"] :=
  C115_arguments_partial (by decide) (by decide) (by decide) (by decide)

/-- C115 is violated: the reports of an existing file are ignored if its name has `-` as second character. -/
theorem C115_violated : ∃ env : Env, (env.disk c!"a-b.txt").isSome = true ∧ main env [c!"a-b.txt"] = main env [] :=
  ⟨{ exampleEnv with disk := fun _ => some [] }, rfl, C115_arguments_partial (by decide) (by decide) (by decide) (by decide)⟩

/-! ### C116 -/

/-- The reports and results of a run are determined, and exist if the input file exists. -/
theorem C116_processed (env : Env) (input : Option Str)
    (h : ∀ name, input = some name → (env.disk name).isSome = true ∨ name ∈ ownFiles) :
    ∃ rss : List (List (ParseResult × Str)), Processed env.disk env.data input (rss.map (List.map Prod.snd)) ∧
      Parsed rss.flatten := by
  have : ∃ bs, Processed env.disk env.data input bs := by
    cases input with
    | none => exact ⟨_, rfl⟩
    | some name =>
      have hx : ∃ text, opened env.disk (some name) name = some text := by
        rw [opened]
        split
        · exact ⟨_, rfl⟩
        · rename_i hn
          rcases h name rfl with h | h
          · exact Option.isSome_iff_exists.mp h
          · exact absurd ⟨by simp, h⟩ hn
      obtain ⟨text, ht⟩ := hx
      obtain ⟨ls, hls⟩ := lines_exist text
      obtain ⟨_, bs, -, -, hb⟩ := all_file (k := 64000) (Nat.le_of_ble_eq_true rfl) (disk := fun _ => some text)
        (path := []) rfl hls
      exact ⟨bs, text, ls, ht, hls, hb⟩
  obtain ⟨bs, hb⟩ := this
  obtain ⟨rss, h1, h2⟩ := batches_exist bs
  exact ⟨rss, by rw [h1]; exact hb, h2⟩

/-- C116. All that is printed: the first section tells how many reports and groups were processed and how long it
took, with a line for each batch. -/
theorem C116_printed {env : Env} {args : List Str} (hw : env.wasm = false)
    (hh : c!"--help" ∉ args) (he : c!"--expint" ∉ args) {rss : List (List (ParseResult × Str))}
    (hb : Processed env.disk env.data (inputFile args) (rss.map (List.map Prod.snd))) (hp : Parsed rss.flatten)
    {lines : List (Nat × Str)}
    (ht : Tally (unknownTexts (inputFile args) (allGroups (counted (inputFile args) rss))) lines)
    {out : Str} {disk : Disk} (h : main env args = .ok (out, disk)) :
    out = printedText args env.clock env.sizeOf (announced env.disk env.data (inputFile args)) (inputFile args) rss lines := by
  have hl : args.getLast? ≠ some [] := by
    intro hl
    rw [main_empty hl] at h
    cases h
  rcases main_does hw hl hh he hb hp ht with ⟨-, r, h1, h2, -⟩ | ⟨-, f, h1, -⟩
  · rw [h] at h1
    cases h1
    exact h2
  · rw [h] at h1
    cases h1

/-- C116, the web version: only the first section, without progress. -/
theorem C116_web {env : Env} {args : List Str} (hw : env.wasm = true) {rss : List (List (ParseResult × Str))}
    (hb : Processed env.disk env.data none (rss.map (List.map Prod.snd))) (hp : Parsed rss.flatten)
    {out : Str} {disk : Disk} (h : main env args = .ok (out, disk)) :
    out = overallText true env.clock (announced env.disk env.data none) none rss ∧ disk = env.disk := by
  have hl : args.getLast? ≠ some [] := by
    intro hl
    rw [main_empty hl] at h
    cases h
  rcases main_web hw hl hb hp with ⟨-, r, h1, h2⟩ | ⟨-, f, h1, -⟩
  · rw [h] at h1
    cases h1
    exact h2
  · rw [h] at h1
    cases h1

omit [FloatIeee] in
/-- C116 in part: each report of the internal data is processed 300 times, and each line of a file once if the
file has less than 64000 lines or a multiple of 64000. Missing: other files; see `C116_violated`. -/
theorem C116_all_partial {disk : Str → Option Str} {data : List (Str × Str)} {bs : List (List Str)} :
    (Processed disk data none bs → bs.flatten = (List.replicate 300 (internalReports data)).flatten) ∧
    ∀ name text ls, opened disk (some name) name = some text → FileLines text ls → Processed disk data (some name) bs →
      (ls.length < 64000 ∨ 64000 ∣ ls.length) → bs.flatten = ls := by
  refine ⟨fun h => by rw [show bs = _ from h], ?_⟩
  rintro name text ls h1 h2 ⟨text', ls', h3, h4, h5⟩ hd
  rw [h1] at h3
  cases h3
  have := fileLines_unique h2 h4
  subst this
  rw [flatten_inBatches h5, inFullBatches]
  split
  · rfl
  · rename_i hlt
    rw [Nat.mul_div_cancel' (hd.resolve_left hlt), List.take_length]

omit [FloatIeee] in
/-- C116, what is lost: with 64000 lines or more, those behind the last full batch. -/
theorem C116_lost {disk : Str → Option Str} {data : List (Str × Str)} {bs : List (List Str)} {name text : Str}
    {ls : List Str} (h1 : opened disk (some name) name = some text) (h2 : FileLines text ls)
    (h3 : Processed disk data (some name) bs) (h4 : 64000 ≤ ls.length) :
    bs.flatten.length + ls.length % 64000 = ls.length := by
  obtain ⟨text', ls', h5, h6, h7⟩ := h3
  rw [h1] at h5
  cases h5
  have := fileLines_unique h2 h6
  subst this
  rw [flatten_inBatches h7, inFullBatches, if_neg (by omega), List.length_take, Nat.min_eq_left (Nat.mul_div_le _ _)]
  exact Nat.div_add_mod _ _

/-! ### C117 -/

/-- C117. After a run with an input file, the files of the program hold the text of every group of every report
processed, in the file for its kind and part, once for each occurrence and in their order, and the reports with
errors. No other file is changed, and none at all without input file. -/
theorem C117_files {env : Env} {args : List Str} (hw : env.wasm = false)
    (hh : c!"--help" ∉ args) (he : c!"--expint" ∉ args) {rss : List (List (ParseResult × Str))}
    (hb : Processed env.disk env.data (inputFile args) (rss.map (List.map Prod.snd))) (hp : Parsed rss.flatten)
    {out : Str} {disk : Disk} (h : main env args = .ok (out, disk)) :
    (∀ n, n ∉ ownFiles → disk n = env.disk n) ∧ (inputFile args = none → disk = env.disk) ∧
    (inputFile args ≠ none → disk c!"reportError" = some (fileOf (errorLines rss.flatten)) ∧
      ∀ k ∈ kinds, ∀ p ∈ partsOf,
        disk (k ++ c!"-" ++ p.2 ++ c!".txt") = some (fileOf (textsOf k p.1 (allGroups rss.flatten)))) := by
  have hl : args.getLast? ≠ some [] := by
    intro hl
    rw [main_empty hl] at h
    cases h
  obtain ⟨lines, ht⟩ := tally_exists (unknownTexts (inputFile args) (allGroups (counted (inputFile args) rss)))
  rcases main_does hw hl hh he hb hp ht with ⟨-, r, h1, -, h2⟩ | ⟨-, f, h1, -⟩
  · rw [h] at h1
    cases h1
    exact ⟨h2.other, h2.same, fun hi => ⟨h2.errors hi, h2.groups hi⟩⟩
  · rw [h] at h1
    cases h1

/-! ### C118 -/

omit [FloatIeee] in
theorem again_short {input : Option Str} {ls : List Str} (h : input = none ∨ ls.length < 1000) : again input ls = ls := by
  rw [again]
  split
  · rename_i hi
    rw [inFullBatches, if_pos (h.resolve_left hi)]
  · rfl

/-- The number of groups not recognised with a text. -/
def unknownNumber (gs : List GroupInfo) (s : Str) : Nat :=
  (gs.filter fun x => kindOf x.group = c!"UnknownGroup" ∧ x.rawString = s).length

omit [FloatIeee] in
theorem count_textsOf (kind : Str) (p : ReportPart) (gs : List GroupInfo) (s : Str) :
    (textsOf kind p gs).count s =
      (gs.filter fun x => kindOf x.group = kind ∧ x.reportPart = p ∧ x.rawString = s).length := by
  induction gs with
  | nil => rfl
  | cons x gs ih =>
    have : textsOf kind p (x :: gs) = textsOf kind p [x] ++ textsOf kind p gs := by
      simp only [textsOf, List.filter_cons, List.filter_nil]
      split <;> rfl
    rw [this, List.count_append, ih, List.filter_cons]
    by_cases h1 : kindOf x.group = kind <;> by_cases h2 : x.reportPart = p <;> by_cases h3 : x.rawString = s <;>
      simp [textsOf, h1, h2, h3]
    omega

omit [FloatIeee] in
theorem unknownNumber_parts (gs : List GroupInfo) (s : Str) :
    (partsOf.flatMap fun p => textsOf c!"UnknownGroup" p.1 gs).count s = unknownNumber gs s := by
  simp only [partsOf, List.flatMap_cons, List.flatMap_nil, List.append_nil, List.count_append, count_textsOf, unknownNumber]
  induction gs with
  | nil => rfl
  | cons x gs ih =>
    simp only [List.filter_cons]
    rw [show ∀ a b c d e : Nat, a + (b + (c + (d + e))) = a + b + c + d + e from fun _ _ _ _ _ => by omega] at ih ⊢
    by_cases h1 : kindOf x.group = c!"UnknownGroup" <;> by_cases h3 : x.rawString = s <;> cases h2 : x.reportPart <;>
      simp [h1, h3] at ih ⊢ <;> omega

omit [FloatIeee] in
/-- C118 in part. The third section of what is printed (see `C116_printed`) lists each text of groups not
recognised once, with the number of its occurrences in the reports (of the internal data once), the most frequent
first. Missing: more than 1000 such groups in one part of the reports of a file; see `C118_violated`. -/
theorem C118_unknown_partial {input : Option Str} {gs : List GroupInfo} {lines : List (Nat × Str)}
    (ht : Tally (unknownTexts input gs) lines)
    (hs : input = none ∨ ∀ p ∈ partsOf, (textsOf c!"UnknownGroup" p.1 gs).length < 1000) :
    (∀ n s, (n, s) ∈ lines ↔ n ≠ 0 ∧ n = unknownNumber gs s) ∧ (lines.map Prod.snd).Nodup ∧
      lines.Pairwise fun a b => b.1 < a.1 ∨ b.1 = a.1 ∧ b.2 < a.2 := by
  have hu : unknownTexts input gs = partsOf.flatMap fun p => textsOf c!"UnknownGroup" p.1 gs := by
    rw [unknownTexts]
    refine List.flatMap_congr fun p hp => again_short ?_
    rcases hs with hs | hs
    · exact Or.inl hs
    · exact Or.inr (hs p hp)
  have hc : ∀ n s, (n, s) ∈ lines ↔ n ≠ 0 ∧ n = unknownNumber gs s := by
    intro n s
    rw [ht.counted, ← List.count_pos_iff, hu, unknownNumber_parts]
    constructor
    · rintro ⟨h1, rfl⟩
      exact ⟨by omega, rfl⟩
    · rintro ⟨h1, rfl⟩
      exact ⟨by omega, rfl⟩
  refine ⟨hc, ?_, ht.order⟩
  rw [List.nodup_iff_pairwise_ne, List.pairwise_map]
  refine (List.Pairwise.and_mem.mp ht.order).imp ?_
  rintro ⟨n, s⟩ ⟨m, t⟩ ⟨h1, h2, h3⟩ he
  simp only at he h3
  subst he
  have e1 := ((hc n s).mp h1).2
  have e2 := ((hc m s).mp h2).2
  rcases h3 with h3 | h3
  · omega
  · have := (strLt_iff _ _).mpr h3.2
    rw [strLt_irrefl] at this
    cases this

/-! ### C119 -/

omit [FloatIeee] in
/-- C119 in part. The second section of what is printed (see `C116_printed`) tells the number of reports with an
error and lists each of them behind the name of its error, in their order. Missing: 500 or more such reports from
a file; see `C119_violated`. -/
theorem C119_errors_partial {input : Option Str} {rs : List (ParseResult × Str)}
    (hs : input = none ∨ (rs.filter fun r => r.1.reportMetadata.error ≠ .NONE).length < 500) :
    errorText input rs = c!"Reports not recognised by the parser:\n" ++
      (if (rs.filter fun r => r.1.reportMetadata.error ≠ .NONE) = [] then
        c!"no report errors, all reports parsed successfully\n"
      else c!"Reports with errors: " ++ num (rs.filter fun r => r.1.reportMetadata.error ≠ .NONE).length ++ c!"\n" ++
        (rs.filter fun r => r.1.reportMetadata.error ≠ .NONE).flatMap fun r =>
          errorName r.1.reportMetadata.error ++ c!"\n" ++ r.2 ++ c!"\n") ++ c!"\n" := by
  have h1 : again input (errorLines rs) = errorLines rs := by
    refine again_short ?_
    rcases hs with hs | hs
    · exact Or.inl hs
    · right
      rw [errorLines_length]
      omega
  have h2 : fileOf (errorLines rs) = (rs.filter fun r => r.1.reportMetadata.error ≠ .NONE).flatMap fun r =>
      errorName r.1.reportMetadata.error ++ c!"\n" ++ r.2 ++ c!"\n" := by
    clear hs h1
    induction rs with
    | nil => rfl
    | cons r rs ih =>
      have : errorLines (r :: rs) = errorLines [r] ++ errorLines rs := by simp [errorLines]
      rw [this, fileOf, List.flatMap_append, ← fileOf, ← fileOf, ih, List.filter_cons]
      by_cases h : r.1.reportMetadata.error = .NONE
      · simp [errorLines, h, fileOf]
      · simp [errorLines, h, fileOf]
  simp only [errorText, h1, h2]

/-! ### C120 -/

/-- C120 in part. The program ends well exactly if the size of the test set is not zero, no empty text has to be
written, and time passes while there is something to measure. Otherwise it divides by zero or asks for the last
character of an empty text. Missing: there are inputs for which it does not end well; see `C120_violated`. -/
theorem C120_ends_partial {env : Env} {args : List Str} (hw : env.wasm = false) (hl : args.getLast? ≠ some [])
    (hh : c!"--help" ∉ args) (he : c!"--expint" ∉ args) {rss : List (List (ParseResult × Str))}
    (hb : Processed env.disk env.data (inputFile args) (rss.map (List.map Prod.snd))) (hp : Parsed rss.flatten) :
    ((∃ r, main env args = .ok r) ↔ FineReports false env.disk env.data env.clock (inputFile args) rss ∧
      (c!"--nogroups" ∉ args → FineGroups env.clock rss.length (inputFile args) (allGroups rss.flatten))) ∧
    ∀ f, main env args = .error f → f = .emptyString ∨ f = .divisionByZero := by
  obtain ⟨lines, ht⟩ := tally_exists (unknownTexts (inputFile args) (allGroups (counted (inputFile args) rss)))
  rcases main_does hw hl hh he hb hp ht with ⟨hg, r, h1, -⟩ | ⟨hg, f, h1, h2⟩
  · refine ⟨⟨fun _ => hg, fun _ => ⟨r, h1⟩⟩, fun f hf => ?_⟩
    rw [h1] at hf
    cases hf
  · refine ⟨⟨?_, fun h => absurd h hg⟩, fun f' hf => ?_⟩
    · rintro ⟨r, hr⟩
      rw [hr] at h1
      cases h1
    · rw [h1] at hf
      cases hf
      simpa using h2

/-- C120, files which do not exist: an exception. -/
theorem C120_missing {env : Env} {args : List Str} (hw : env.wasm = false) (hl : args.getLast? ≠ some [])
    (hh : c!"--help" ∉ args) (he : c!"--expint" ∉ args) {name : Str} (hi : inputFile args = some name)
    (hd : env.disk name = none) (ho : name ∉ ownFiles) : main env args = .error .cannotOpen :=
  main_missing hw hl hh he hi (by rw [opened, if_neg (by simp [ho]), hd])

/-- C120, the ways in which the program may fail, whatever the input is: the library never does, no index is out
of range and every loop ends. -/
theorem C120_failures (env : Env) (args : List Str) (f : Failure) (h : main env args = .error f) :
    f ∈ [Failure.cannotOpen, .emptyString, .divisionByZero, .behindArgument] := by
  by_cases hl : args.getLast? = some []
  · rw [main_empty hl] at h
    cases h
    decide
  by_cases hw : env.wasm = true
  · obtain ⟨rss, h1, h2⟩ := C116_processed env none (by simp)
    rcases main_web hw hl h1 h2 with ⟨-, r, h3, -⟩ | ⟨-, g, h3, h4⟩
    · rw [h] at h3
      cases h3
    · rw [h] at h3
      cases h3
      revert h4
      simp only [List.mem_cons, List.not_mem_nil, or_false]
      rintro (rfl | rfl) <;> simp
  rw [Bool.not_eq_true] at hw
  by_cases hh : c!"--help" ∈ args
  · rw [main_help hw hl hh] at h
    cases h
  by_cases he : c!"--expint" ∈ args
  · obtain ⟨t, ht⟩ := main_export hw hl hh he
    rw [ht] at h
    cases h
  by_cases hd : ∀ name, inputFile args = some name → (env.disk name).isSome = true ∨ name ∈ ownFiles
  · obtain ⟨rss, h1, h2⟩ := C116_processed env (inputFile args) hd
    rcases (C120_ends_partial hw hl hh he h1 h2).2 f h with rfl | rfl <;> decide
  · simp only [not_forall, not_or, Bool.not_eq_true, Option.isSome_eq_false_iff, Option.isNone_iff_eq_none] at hd
    obtain ⟨name, h1, h2, h3⟩ := hd
    rw [C120_missing hw hl hh he h1 h2 h3] at h
    cases h
    decide

/-! ### C121 -/

omit [FloatIeee] in
/-- C121 in part. The fourth section of what is printed (see `C116_printed`) has for each kind of groups except
weather and groups not recognised the number of these groups with text in all reports. Missing: weather groups,
see `C121_violated`, and more than 1000 groups in one part of the reports of a file. -/
theorem C121_kinds_partial {input : Option Str} {gs : List GroupInfo} {kind : Str}
    (hs : input = none ∨ ∀ p ∈ partsOf, (textsOf kind p.1 gs).length < 1000) :
    testedNumber input gs kind = (gs.filter fun x => kindOf x.group = kind ∧ x.rawString ≠ []).length := by
  have h1 : testedNumber input gs kind =
      (partsOf.map fun p => ((textsOf kind p.1 gs).filter fun s => s ≠ []).length).sum := by
    rw [testedNumber]
    congr 1
    refine List.map_congr_left fun p hp => ?_
    rw [again_short]
    rcases hs with hs | hs
    · exact Or.inl hs
    · exact Or.inr (hs p hp)
  rw [h1]
  clear hs h1
  simp only [partsOf, List.map_cons, List.map_nil, List.sum_cons, List.sum_nil]
  induction gs with
  | nil => rfl
  | cons x gs ih =>
    have hc : ∀ p, textsOf kind p (x :: gs) = textsOf kind p [x] ++ textsOf kind p gs := by
      intro p
      simp only [textsOf, List.filter_cons, List.filter_nil]
      split <;> rfl
    simp only [hc, List.filter_append, List.length_append, List.filter_cons]
    by_cases h1 : kindOf x.group = kind <;> by_cases h3 : x.rawString = [] <;> cases h2 : x.reportPart <;>
      simp [textsOf, h1, h2, h3] at ih ⊢ <;> omega

/-- C121 is violated: for weather groups there is neither a number nor a time, whatever the reports are. -/
theorem C121_violated {env : Env} {args : List Str} (hw : env.wasm = false)
    (hh : c!"--help" ∉ args) (he : c!"--expint" ∉ args) (hg : c!"--nogroups" ∉ args)
    (hi : ∀ name, inputFile args = some name → (env.disk name).isSome = true ∨ name ∈ ownFiles)
    {out : Str} {disk : Disk} (h : main env args = .ok (out, disk)) :
    c!"No performance stats exist for WeatherGroup.\n" <:+: out := by
  obtain ⟨rss, h1, h2⟩ := C116_processed env (inputFile args) hi
  obtain ⟨lines, ht⟩ := tally_exists (unknownTexts (inputFile args) (allGroups (counted (inputFile args) rss)))
  rw [C116_printed hw hh he h1 h2 ht h, printedText, if_neg hg, groupText]
  have hk : kinds = kinds.take 7 ++ c!"WeatherGroup" :: kinds.drop 8 := by decide
  have hn : c!"WeatherGroup" ∉ testedKinds := by decide
  generalize inputFile args = input, allGroups rss.flatten = gs, rss.length = n at *
  have key : ∀ F : Str → Str, kinds.flatMap F =
      (kinds.take 7).flatMap F ++ (F c!"WeatherGroup" ++ (kinds.drop 8).flatMap F) := by
    intro F
    conv_lhs => rw [hk]
    rw [List.flatMap_append, List.flatMap_cons]
  rw [key, if_neg hn]
  refine .trans ?_ (List.prefix_append _ _).isInfix
  refine .trans ?_ (List.suffix_append _ _).isInfix
  refine .trans ?_ (List.prefix_append _ _).isInfix
  refine .trans ?_ (List.suffix_append _ _).isInfix
  refine .trans ?_ (List.suffix_append _ _).isInfix
  exact (List.prefix_append _ _).isInfix

/-! ### C122 -/

omit [FloatIeee] in
theorem export_perm (data : List (Str × Str)) :
    ((data.flatMap fun d => [d.1].filter fun s => s ≠ []) ++ data.flatMap fun d => [d.2].filter fun s => s ≠ []).Perm
      (internalReports data) := by
  induction data with
  | nil => exact List.Perm.refl _
  | cons d data ih =>
    rw [internalReports, List.flatMap_cons, List.flatMap_cons, List.flatMap_cons, ← internalReports]
    have e : ([d.1, d.2].filter fun s => s ≠ []) = ([d.1].filter fun s => s ≠ []) ++ [d.2].filter fun s => s ≠ [] := by
      rw [← List.filter_append]
      rfl
    rw [e]
    refine List.Perm.trans ?_ (List.Perm.append_left _ ih)
    generalize ([d.1].filter fun s => s ≠ []) = a, ([d.2].filter fun s => s ≠ []) = b
    generalize (data.flatMap fun d => [d.1].filter fun s => s ≠ []) = x,
      (data.flatMap fun d => [d.2].filter fun s => s ≠ []) = y
    rw [List.append_assoc, List.append_assoc]
    refine List.Perm.append_left _ ?_
    rw [← List.append_assoc, ← List.append_assoc]
    exact List.Perm.append_right _ List.perm_append_comm

omit [FloatIeee] in
theorem exportText_eq (data : List (Str × Str)) :
    exportText data = fileOf ((data.flatMap fun d => [d.1].filter fun s => s ≠ []) ++
      data.flatMap fun d => [d.2].filter fun s => s ≠ []) := by
  have h : ∀ F : Str × Str → Str, (data.flatMap fun d => if (F d).isEmpty then [] else F d ++ c!"\n") =
      fileOf (data.flatMap fun d => [F d].filter fun s => s ≠ []) := by
    intro F
    rw [fileOf, List.flatMap_assoc]
    congr 1
    funext d
    cases F d <;> simp
  rw [exportText, h Prod.fst, h Prod.snd, fileOf, fileOf, fileOf, List.flatMap_append]

/-- C122. The data exported are the internal data: the lines of the file exported are the reports of the internal
data, in another order. No file but this one and those of the program itself is changed. -/
theorem C122_export {env : Env} {args : List Str} (hw : env.wasm = false) (hl : args.getLast? ≠ some [])
    (hh : c!"--help" ∉ args) (he : c!"--expint" ∈ args) (hd : ∀ d ∈ env.data, '\n' ∉ d.1 ∧ '\n' ∉ d.2) :
    ∃ out disk text ls, main env args = .ok (out, disk) ∧ disk c!"testdatareal.txt" = some text ∧ FileLines text ls ∧
      ls.Perm (internalReports env.data) ∧
      ∀ n, n ≠ c!"testdatareal.txt" → (inputFile args = none ∨ n ∉ ownFiles) → disk n = env.disk n := by
  obtain ⟨t, ht⟩ := main_export hw hl hh he
  refine ⟨t, _, _, _, ht, if_pos rfl, ?_, export_perm env.data, ?_⟩
  · rw [exportText_eq]
    refine fileLines_fileOf fun s hs => ?_
    simp only [List.mem_append, List.mem_flatMap, List.mem_filter, List.mem_singleton] at hs
    rcases hs with ⟨d, h1, rfl, -⟩ | ⟨d, h1, rfl, -⟩
    · exact (hd d h1).1
    · exact (hd d h1).2
  · intro n hn h
    simp only [if_neg hn, opened]
    split
    · rename_i hc
      rcases h with h | h
      · exact absurd h hc.1
      · exact absurd hc.2 h
    · rfl

omit [FloatIeee] in
/-- C122, the way back: the file exported, used as input, gives a test with each report of the internal data once. -/
theorem C122_again {disk : Disk} {data data' : List (Str × Str)} {text : Str} {ls : List Str} {bs : List (List Str)}
    (ht : disk c!"testdatareal.txt" = some text) (hf : FileLines text ls) (hp : ls.Perm (internalReports data))
    (hs : (internalReports data).length < 64000) (hb : Processed disk data' (some c!"testdatareal.txt") bs) :
    bs.flatten.Perm (internalReports data) := by
  have ho : opened disk (some c!"testdatareal.txt") c!"testdatareal.txt" = some text := by
    rw [opened, if_neg (by decide +kernel), ht]
  rw [(C116_all_partial.2 _ text ls ho hf hb (Or.inl (by rw [hp.length_eq]; exact hs)))]
  exact hp

/-- C122, the help names all options with an effect; nothing is done with the reports. -/
theorem C122_help : ∃ text : Str, (∀ o ∈ optionNames, o <:+: text) ∧
    ∀ (env : Env) (args : List Str), env.wasm = false → args.getLast? ≠ some [] → c!"--help" ∈ args →
      main env args = .ok (text, opened env.disk (inputFile args)) :=
  ⟨helpText, by decide +kernel, fun _ _ hw hl hh => main_help hw hl hh⟩

end Metaf.Props

/-! ### Runs with concrete files -/

namespace Metaf.Props

open Metaf Metaf.Spec Metaf.Performance

attribute [local instance] ieee

/-- The result for a report which has only the group `X`. -/
def resultX : ParseResult where
  reportMetadata := { error := .EXPECTED_REPORT_TYPE_OR_LOCATION, correctionNumber := some 0 }
  groups := [⟨.unknown ⟨⟩, .HEADER, c!"X"⟩]

theorem parseX : Parser.parse c!"X" = .ok resultX := by kernel_rfl

/-- A file with `n` lines `X`. -/
def envX (n : Nat) : Env :=
  { exampleEnv with disk := fun name => if name = c!"x.txt" then some (fileOf (List.replicate n c!"X")) else none }

def argsX : List Str := [c!"--nogroups", c!"x.txt"]

theorem countX (n : Nat) : (fileOf (List.replicate n c!"X")).count '\n' = n := by
  induction n with
  | zero => rfl
  | succ n ih =>
    rw [List.replicate_succ, fileOf, List.flatMap_cons, ← fileOf, List.count_append, ih, Nat.add_comm]
    rfl

theorem allGroupsX (m : Nat) : allGroups (List.replicate m (resultX, c!"X")) = List.replicate m ⟨.unknown ⟨⟩, .HEADER, c!"X"⟩ := by
  induction m with
  | zero => rfl
  | succ m ih =>
    rw [List.replicate_succ, allGroups, List.flatMap_cons, ← allGroups, ih]
    rfl

theorem textsX (k : Str) (p : ReportPart) (m : Nat) :
    textsOf k p (List.replicate m ⟨.unknown ⟨⟩, .HEADER, c!"X"⟩) =
      if k = c!"UnknownGroup" ∧ p = .HEADER then List.replicate m c!"X" else [] := by
  rw [textsOf, List.filter_replicate]
  by_cases h : k = c!"UnknownGroup" ∧ p = .HEADER
  · rw [if_pos h, h.1, h.2, if_pos (by decide), List.map_replicate]
  · rw [if_neg h, if_neg, List.map_nil]
    intro hx
    have := of_decide_eq_true hx
    exact h ⟨this.1.symm, this.2.symm⟩

theorem unknownTextsX (m : Nat) :
    unknownTexts (some c!"x.txt") (List.replicate m ⟨.unknown ⟨⟩, .HEADER, c!"X"⟩) = inFullBatches 1000 (List.replicate m c!"X") := by
  have h0 : inFullBatches 1000 ([] : List Str) = [] := rfl
  have h1 : ∀ ls, again (some c!"x.txt") ls = inFullBatches 1000 ls := fun ls => if_pos (by decide)
  simp only [unknownTexts, partsOf, List.flatMap_cons, List.flatMap_nil, textsX, h1]
  rw [if_neg (by decide), if_pos (by decide), if_neg (by decide), if_neg (by decide), if_neg (by decide), h0]
  simp only [List.append_nil, List.nil_append]

theorem tallyX (m : Nat) : Tally (List.replicate (m + 1) c!"X") [(m + 1, c!"X")] where
  counted n s := by
    simp only [List.mem_singleton, Prod.mk.injEq, List.mem_replicate, List.count_replicate]
    constructor
    · rintro ⟨rfl, rfl⟩
      simp
    · rintro ⟨⟨-, rfl⟩, rfl⟩
      simp
  order := List.pairwise_singleton _ _

/-- The numbers of groups not recognised in two reports. -/
example : Tally (unknownTexts none (allGroups (List.replicate 2 (resultX, c!"X")))) [(2, c!"X")] ∧
    unknownNumber (allGroups (List.replicate 2 (resultX, c!"X"))) c!"X" = 2 := by
  rw [allGroupsX]
  exact ⟨tallyX 1, by decide⟩

theorem diskX (n : Nat) : (envX n).disk c!"x.txt" = some (fileOf (List.replicate n c!"X")) := by
  simp only [envX, if_true]

theorem linesX (n : Nat) : FileLines (fileOf (List.replicate n c!"X")) (List.replicate n c!"X") := by
  refine fileLines_fileOf fun s hs => ?_
  rw [(List.mem_replicate.mp hs).2]
  decide

theorem runX {n m : Nat} (h0 : n ≠ 0) (hb : InBatches 64000 (List.replicate n c!"X") [List.replicate m c!"X"])
    {lines : List (Nat × Str)} (ht : Tally (inFullBatches 1000 (List.replicate m c!"X")) lines) :
    ∃ disk, main (envX n) argsX = .ok (overallText false (fun _ => 5) n (some c!"x.txt") [List.replicate m (resultX, c!"X")] ++
      errorText (some c!"x.txt") (List.replicate m (resultX, c!"X")) ++ unknownText lines ++
      sizeText (fun s => s.length), disk) := by
  have hi : inputFile argsX = some c!"x.txt" := by decide
  have ho : opened (envX n).disk (some c!"x.txt") c!"x.txt" = some (fileOf (List.replicate n c!"X")) := by
    rw [opened, if_neg (by decide +kernel)]
    simp only [envX, if_true]
  have hp : Processed (envX n).disk (envX n).data (inputFile argsX)
      ([List.replicate m (resultX, c!"X")].map (List.map Prod.snd)) := by
    rw [hi]
    refine ⟨_, _, ho, fileLines_fileOf ?_, ?_⟩
    · intro s hs
      rw [(List.mem_replicate.mp hs).2]
      decide
    · rw [List.map_cons, List.map_nil, List.map_replicate]
      exact hb
  have hr : Parsed [List.replicate m (resultX, c!"X")].flatten := by
    intro r hr
    rw [List.flatten_singleton] at hr
    rw [(List.mem_replicate.mp hr).2]
    exact parseX
  have ha : announced (envX n).disk (envX n).data (some c!"x.txt") = n := by
    rw [announced, ho, Option.getD_some, countX]
  have hfine : ∃ r, main (envX n) argsX = .ok r := by
    refine (C120_ends_partial rfl (by decide) (by decide) (by decide) hp hr).1.mpr ⟨⟨?_, ?_, Or.inr ?_⟩, fun h => ?_⟩
    · rw [hi, ha]
      exact fun _ => h0
    · intro _ r h
      rw [List.flatten_singleton] at h
      rw [(List.mem_replicate.mp h).2]
      refine ⟨by simp, ?_⟩
      intro x hx
      rw [List.mem_singleton.mp hx]
      simp
    · have : timeFrom (fun _ => 5) 0 1 ≠ 0 := by decide
      exact this
    · exact absurd (by decide) h
  obtain ⟨⟨out, disk⟩, h⟩ := hfine
  refine ⟨disk, ?_⟩
  have ht' : Tally (unknownTexts (inputFile argsX) (allGroups (counted (inputFile argsX) [List.replicate m (resultX, c!"X")]))) lines := by
    rw [hi, counted, List.flatten_singleton, allGroupsX, unknownTextsX]
    exact ht
  have := C116_printed rfl (by decide) (by decide) hp hr ht' h
  rw [h, this, hi, ha, printedText, if_neg (by decide), if_neg (by decide), if_pos (by decide), if_neg (by decide),
    List.flatten_singleton, List.append_nil]
  rfl

theorem errorLinesX (m : Nat) : errorLines (List.replicate m (resultX, c!"X")) =
    (List.replicate m [c!"expected report_type_or_location", c!"X"]).flatten := by
  induction m with
  | zero => rfl
  | succ m ih =>
    rw [List.replicate_succ, errorLines, List.flatMap_cons, ← errorLines, ih, List.replicate_succ, List.flatten_cons]
    rfl

theorem errorFileX (m : Nat) : fileOf (List.replicate m [c!"expected report_type_or_location", c!"X"]).flatten =
    fileOf (List.replicate m c!"expected report_type_or_location\nX") := by
  induction m with
  | zero => rfl
  | succ m ih =>
    rw [List.replicate_succ, List.flatten_cons, fileOf, List.flatMap_append, ← fileOf, ← fileOf, ih,
      List.replicate_succ, fileOf, fileOf, fileOf, List.flatMap_cons]
    rfl

theorem errorLengthX (m : Nat) :
    (List.replicate m [c!"expected report_type_or_location", c!"X"]).flatten.length = 2 * m := by
  rw [List.length_flatten, List.map_replicate, List.sum_replicate_nat, Nat.mul_comm]
  rfl

attribute [local irreducible] InBatches List.replicate

/-- C116 is violated: of a file with 64001 reports one is not processed. -/
theorem C116_violated : ∃ (env : Env) (args : List Str) (text : Str) (ls : List Str) (out : Str) (disk : Disk),
    inputFile args = some c!"x.txt" ∧ env.disk c!"x.txt" = some text ∧ FileLines text ls ∧ ls.length = 64001 ∧
    main env args = .ok (out, disk) ∧
    c!"Checking overall parser performance\nUsing data set from file x.txt\nTest set size is 64001\n" ++
      c!"Processed 64000 reports of 64001 (99%), 64000 groups parsed\n\n" ++
      c!"5 microseconds, 64000 reports, 12800000000 reports per second.\n" ++
      c!"5 microseconds, 64000 groups, 12800000000 groups per second.\n\n" <+: out := by
  have hb : InBatches 64000 (List.replicate 64001 c!"X") [List.replicate 64000 c!"X"] := by
    rw [InBatches, List.length_replicate, if_neg (by omega)]
    refine ⟨?_, ?_⟩
    · rw [List.flatten_singleton, List.take_replicate]
      congr 1
    · intro b hb
      rw [List.mem_singleton.mp hb, List.length_replicate]
  obtain ⟨lines, ht⟩ := tally_exists (inFullBatches 1000 (List.replicate 64000 c!"X"))
  obtain ⟨disk, h⟩ := runX (n := 64001) (m := 64000) (by decide) hb ht
  refine ⟨_, _, fileOf (List.replicate 64001 c!"X"), List.replicate 64001 c!"X", _, disk, by decide, diskX _,
    linesX _, List.length_replicate, h, ?_⟩
  · have hp : progressText 64001 [List.replicate 64000 (resultX, c!"X")] =
        c!"Processed 64000 reports of 64001 (99%), 64000 groups parsed\n" := by
      have e : List.range ([List.replicate 64000 (resultX, c!"X")]).length = [0] := rfl
      simp only [progressText, e, List.flatMap_cons, List.flatMap_nil, List.take_succ_cons, List.take_zero,
        List.flatten_singleton, allGroupsX, List.length_replicate]
      decide +kernel
    have ht : timeFrom (fun _ => 5) 0 ([List.replicate 64000 (resultX, c!"X")]).length = 5 := rfl
    have ho : overallText false (fun _ => 5) 64001 (some c!"x.txt") [List.replicate 64000 (resultX, c!"X")] =
      c!"Checking overall parser performance\nUsing data set from file x.txt\nTest set size is 64001\n" ++
        c!"Processed 64000 reports of 64001 (99%), 64000 groups parsed\n\n" ++
        c!"5 microseconds, 64000 reports, 12800000000 reports per second.\n" ++
        c!"5 microseconds, 64000 groups, 12800000000 groups per second.\n\n" := by
      simp only [overallText, hp, ht, List.flatten_singleton, allGroupsX, List.length_replicate]
      decide +kernel
    rw [ho]
    simp only [List.append_assoc]
    exact List.prefix_append_right_inj _ |>.mpr (List.prefix_append_right_inj _ |>.mpr
      (List.prefix_append_right_inj _ |>.mpr (List.prefix_append _ _)))

/-- C118 and C119 are violated: a file has 1001 reports with an error, each with a group not recognised. All of
them are processed and counted, but only 1000 are listed and the group is said to occur 1000 times. -/
theorem C119_violated : ∃ (env : Env) (args : List Str) (text : Str) (out : Str) (disk : Disk) (before : Str),
    inputFile args = some c!"x.txt" ∧ env.disk c!"x.txt" = some text ∧ FileLines text (List.replicate 1001 c!"X") ∧
    main env args = .ok (out, disk) ∧
    out = before ++ (c!"Reports not recognised by the parser:\nReports with errors: 1001\n" ++
      (fileOf (List.replicate 1000 c!"expected report_type_or_location\nX") ++
      (c!"\nGroups not recognised by the parser (by occurrence number):\n1000: X\n\n" ++ sizeText env.sizeOf))) := by
  have hb : InBatches 64000 (List.replicate 1001 c!"X") [List.replicate 1001 c!"X"] := by
    rw [InBatches, List.length_replicate, if_pos (by omega)]
  have ht : Tally (inFullBatches 1000 (List.replicate 1001 c!"X")) [(1000, c!"X")] := by
    rw [inFullBatches, List.length_replicate, if_neg (by omega), List.take_replicate]
    exact tallyX 999
  obtain ⟨disk, h⟩ := runX (n := 1001) (m := 1001) (by decide) hb ht
  refine ⟨_, _, fileOf (List.replicate 1001 c!"X"), _, disk,
    overallText false (fun _ => 5) 1001 (some c!"x.txt") [List.replicate 1001 (resultX, c!"X")], by decide, diskX _,
    linesX _, h, ?_⟩
  · have ha : again (some c!"x.txt") (errorLines (List.replicate 1001 (resultX, c!"X"))) =
        (List.replicate 1000 [c!"expected report_type_or_location", c!"X"]).flatten := by
      rw [again, if_pos (by simp), inFullBatches, errorLinesX, errorLengthX, if_neg (by omega)]
      rw [show 1001 = 1000 + 1 from rfl, List.replicate_add, List.flatten_append, List.take_append_of_le_length, List.take_of_length_le]
      · rw [errorLengthX]
      · rw [errorLengthX]
    have hbad : ((List.replicate 1001 (resultX, c!"X")).filter fun r => r.1.reportMetadata.error ≠ .NONE) =
        List.replicate 1001 (resultX, c!"X") := by
      rw [List.filter_replicate, if_pos (by decide)]
    have hn : ¬ List.replicate 1001 (resultX, c!"X") = [] := by
      intro hx
      have := congrArg List.length hx
      rw [List.length_replicate] at this
      cases this
    have h1001 : num 1001 = c!"1001" := by decide
    have hu : unknownText [(1000, c!"X")] =
      c!"Groups not recognised by the parser (by occurrence number):\n1000: X\n\n" := by decide
    simp only [errorText, hbad, if_neg hn, ha, errorFileX, List.length_replicate, h1001, hu, List.append_assoc]
    rfl

/-- C120 is violated: an empty line in the file. -/
theorem C120_violated : ∃ env : Env, env.disk c!"x.txt" = some c!"EGLL\n\n" ∧ main env [c!"x.txt"] = .error .emptyString := by
  refine ⟨{ exampleEnv with disk := fun _ => some c!"EGLL\n\n" }, rfl, ?_⟩
  kernel_rfl

/-- A whole run: what is printed, and some of the files written. -/
example : (main exampleEnv [c!"--nogroups", c!"--nosize", c!"reports.txt"]).map (fun r =>
      (r.1, r.2 c!"reportError", r.2 c!"UnknownGroup-metar.txt", r.2 c!"LocationGroup-header.txt")) =
    .ok (c!"Checking overall parser performance\nUsing data set from file reports.txt\nTest set size is 3\n" ++
      c!"Processed 3 reports of 3 (100%), 13 groups parsed\n\n" ++
      c!"5 microseconds, 3 reports, 600000 reports per second.\n" ++
      c!"5 microseconds, 13 groups, 2600000 groups per second.\n\n" ++
      c!"Reports not recognised by the parser:\nReports with errors: 1\nunexpected report end\nEGLL\n\n" ++
      c!"Groups not recognised by the parser (by occurrence number):\n2: FOO\n\n",
      some c!"unexpected report end\nEGLL\n", some c!"FOO\n", some c!"EGLL\nEGLL\nEGLL\n") := by
  decide +kernel

/-- The groups of each kind. -/
example : (main exampleEnv [c!"--noerror", c!"--nounkn", c!"--nosize", c!"reports.txt"]).map (fun r =>
      decide (c!"25 microseconds, 3 LocationGroups, 120000 LocationGroups per second.\n" <:+: r.1) &&
      decide (c!"No processed VisibilityGroups.\n" <:+: r.1) &&
      decide (c!"No performance stats exist for WeatherGroup.\n" <:+: r.1)) = .ok true := by
  decide +kernel

/-- Export and help. -/
example : (main exampleEnv [c!"--expint"]).map (fun r => r.2 c!"testdatareal.txt") =
    .ok (some c!"METAR EGLL 041115Z 24008KT FOO\nTAF EGLL 041100Z 0412/0512 24008KT FOO\n") := by
  decide +kernel

/-- Hypotheses of C116 to C122 hold for the example. -/
example : inputFile [c!"--nosize", c!"reports.txt"] = some c!"reports.txt" ∧ (exampleEnv.disk c!"reports.txt").isSome = true ∧
    internalReports exampleEnv.data = [c!"METAR EGLL 041115Z 24008KT FOO", c!"TAF EGLL 041100Z 0412/0512 24008KT FOO"] ∧
    (∀ d ∈ exampleEnv.data, '\n' ∉ d.1 ∧ '\n' ∉ d.2) := by
  decide +kernel

/-- An input file which does not exist. -/
example : main exampleEnv [c!"other.txt"] = .error .cannotOpen :=
  C120_missing rfl (by decide) (by decide) (by decide) (name := c!"other.txt") (by decide) rfl (by decide +kernel)

end Metaf.Props
