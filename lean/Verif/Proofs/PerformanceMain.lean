import Verif.Proofs.PerformanceGroups

/-! The check of performance: the program as a whole. -/

namespace Metaf.Performance

open Metaf Metaf.Spec Metaf.Props

/-! ### The command line -/

/-- The effect of the options. -/
structure Opted (init p : CommandLineParameters) (args : List Str) : Prop where
  help : p.help = (init.help || decide (c!"--help" ∈ args))
  exporting : p.exportInternalTestData = (init.exportInternalTestData || decide (c!"--expint" ∈ args))
  groups : p.checkGroupPerformance = (init.checkGroupPerformance && !decide (c!"--nogroups" ∈ args))
  errors : p.printErrorReports = (init.printErrorReports && !decide (c!"--noerror" ∈ args))
  unknown : p.printUnknownGroups = (init.printUnknownGroups && !decide (c!"--nounkn" ∈ args))
  stats : p.printTestSetStats = (init.printTestSetStats && !decide (c!"--nostats" ∈ args))
  size : p.printDataSize = (init.printDataSize && !decide (c!"--nosize" ∈ args))
  internal : p.inputFromInternalTestData = init.inputFromInternalTestData
  file : p.inputFile = init.inputFile

theorem setOption_one (init : CommandLineParameters) (a : Str) : Opted init (setOption init a) [a] := by
  rw [setOption]
  by_cases h1 : a = c!"--help"
  · subst h1; constructor <;> simp
  rw [if_neg h1]
  by_cases h2 : a = c!"--expint"
  · subst h2; constructor <;> simp
  rw [if_neg h2]
  by_cases h3 : a = c!"--nogroups"
  · subst h3; constructor <;> simp
  rw [if_neg h3]
  by_cases h4 : a = c!"--noerror"
  · subst h4; constructor <;> simp
  rw [if_neg h4]
  by_cases h5 : a = c!"--nounkn"
  · subst h5; constructor <;> simp
  rw [if_neg h5]
  by_cases h6 : a = c!"--nostats"
  · subst h6; constructor <;> simp
  rw [if_neg h6]
  by_cases h7 : a = c!"--nosize"
  · subst h7; constructor <;> simp
  rw [if_neg h7]
  constructor <;> simp [Ne.symm h1, Ne.symm h2, Ne.symm h3, Ne.symm h4, Ne.symm h5, Ne.symm h6, Ne.symm h7]

theorem Opted.trans {a b c : CommandLineParameters} {l l' : List Str} (h : Opted a b l) (h' : Opted b c l') :
    Opted a c (l ++ l') := by
  have hor : ∀ s : Str, decide (s ∈ l ++ l') = (decide (s ∈ l) || decide (s ∈ l')) := by
    intro s
    by_cases h1 : s ∈ l <;> by_cases h2 : s ∈ l' <;> simp [h1, h2]
  constructor
  · rw [h'.help, h.help, hor, Bool.or_assoc]
  · rw [h'.exporting, h.exporting, hor, Bool.or_assoc]
  · rw [h'.groups, h.groups, hor, Bool.not_or, Bool.and_assoc]
  · rw [h'.errors, h.errors, hor, Bool.not_or, Bool.and_assoc]
  · rw [h'.unknown, h.unknown, hor, Bool.not_or, Bool.and_assoc]
  · rw [h'.stats, h.stats, hor, Bool.not_or, Bool.and_assoc]
  · rw [h'.size, h.size, hor, Bool.not_or, Bool.and_assoc]
  · rw [h'.internal, h.internal]
  · rw [h'.file, h.file]

theorem setOptions (init : CommandLineParameters) (args : List Str) : Opted init (args.foldl setOption init) args := by
  induction args generalizing init with
  | nil => constructor <;> simp
  | cons a args ih =>
    rw [List.foldl_cons]
    exact (setOption_one init a).trans (ih _)

/-- The parameters are those of the command line. -/
structure Params (args : List Str) (p : CommandLineParameters) : Prop where
  asks : Asks p (inputFile args)
  help : p.help = decide (c!"--help" ∈ args)
  exporting : p.exportInternalTestData = decide (c!"--expint" ∈ args)
  groups : p.checkGroupPerformance = !decide (c!"--nogroups" ∈ args)
  errors : p.printErrorReports = !decide (c!"--noerror" ∈ args)
  unknown : p.printUnknownGroups = !decide (c!"--nounkn" ∈ args)
  size : p.printDataSize = !decide (c!"--nosize" ∈ args)

theorem argChar_some {s : Str} {i : Nat} {c : Char} (h : s[i]? = some c) : argChar s i = .ok c := by
  rw [argChar, h]

theorem setParameters {args : List Str} (hl : args.getLast? ≠ some []) :
    ∃ p, setCommandLineParameters args = .ok p ∧ Params args p := by
  have ho := setOptions {} args
  have hno : ∀ p : CommandLineParameters, p = args.foldl setOption {} → inputFile args = none → Params args p := by
    rintro p rfl hi
    refine ⟨⟨?_, ?_⟩, by simpa using ho.help, by simpa using ho.exporting, by simpa using ho.groups, by simpa using ho.errors,
      by simpa using ho.unknown, by simpa using ho.size⟩
    · rw [ho.internal, hi]
      rfl
    · intro name hn
      rw [hi] at hn
      cases hn
  rw [setCommandLineParameters]
  cases hg : args.getLast? with
  | none => exact ⟨_, rfl, hno _ rfl (by rw [inputFile, hg])⟩
  | some last =>
    cases last with
    | nil => exact absurd hg hl
    | cons a last =>
      have e0 : argChar (a :: last) 0 = .ok a := rfl
      simp only [e0, Except.bind]
      by_cases ha : a = '-'
      · rw [if_pos ha]
        refine ⟨_, rfl, hno _ rfl ?_⟩
        rw [inputFile, hg]
        simp [ha]
      · rw [if_neg ha]
        have hyes : ∀ p : CommandLineParameters, p = { args.foldl setOption {} with
            inputFile := a :: last, inputFromInternalTestData := false } → inputFile args = some (a :: last) →
            Params args p := by
          rintro p rfl hi
          refine ⟨⟨?_, ?_⟩, by simpa using ho.help, by simpa using ho.exporting, by simpa using ho.groups,
            by simpa using ho.errors, by simpa using ho.unknown, by simpa using ho.size⟩
          · rw [hi]
            rfl
          · intro name hn
            rw [hi] at hn
            exact Option.some.inj hn
        cases last with
        | nil =>
          have e1 : argChar [a] 1 = .ok '\x00' := rfl
          rw [e1]
          refine ⟨_, rfl, hyes _ rfl ?_⟩
          rw [inputFile, hg]
          simp [ha]
        | cons b last =>
          have e1 : argChar (a :: b :: last) 1 = .ok b := rfl
          simp only [e1]
          by_cases hb : b = '-'
          · rw [if_pos hb]
            refine ⟨_, rfl, hno _ rfl ?_⟩
            rw [inputFile, hg]
            simp [hb]
          · rw [if_neg hb]
            refine ⟨_, rfl, hyes _ rfl ?_⟩
            rw [inputFile, hg]
            simp [ha, hb]

theorem setParameters_empty {args : List Str} (hl : args.getLast? = some []) :
    setCommandLineParameters args = .error .behindArgument := by
  rw [setCommandLineParameters, hl]
  rfl

/-! ### The program -/

variable [FloatIeee]

theorem replicate_parsed {n : Nat} {reports : List Str} {rss : List (List (ParseResult × Str))} (hp : Parsed rss.flatten)
    (h : rss.map (List.map Prod.snd) = List.replicate n reports) : ∃ rs, rss = List.replicate n rs := by
  obtain ⟨rs, h1, h2⟩ := parsed_exists reports
  refine ⟨rs, List.eq_replicate_iff.mpr ⟨?_, ?_⟩⟩
  · have := congrArg List.length h
    simpa using this
  · intro x hx
    refine parsed_unique (fun r hr => hp r (List.mem_flatten.mpr ⟨x, hx, hr⟩)) h1 ?_
    rw [h2]
    have : x.map Prod.snd ∈ List.replicate n reports := by
      rw [← h]
      exact List.mem_map_of_mem hx
    exact List.eq_of_mem_replicate this

omit [FloatIeee] in
theorem sizeText_eq (sizeOf : Str → Nat) : printDataSize sizeOf = sizeText sizeOf := by
  simp only [printDataSize, sizeText, ← kinds_eq, List.flatMap_map]
  rfl

/-- The files after a run. -/
structure Left (input : Option Str) (disk disk' : Str → Option Str) (rs : List (ParseResult × Str)) : Prop where
  other : ∀ n, n ∉ ownFiles → disk' n = disk n
  same : input = none → disk' = disk
  errors : input ≠ none → disk' c!"reportError" = some (fileOf (errorLines rs))
  groups : input ≠ none → ∀ k ∈ kinds, ∀ p ∈ partsOf,
    disk' (k ++ c!"-" ++ p.2 ++ c!".txt") = some (fileOf (textsOf k p.1 (allGroups rs)))

omit [FloatIeee] in
theorem fileName_index : ∀ k < 22, ∀ p ∈ partsOf,
    fileName (groupIndex k (reportPartIndex p.1)) = groupName k ++ c!"-" ++ p.2 ++ c!".txt" := by decide +kernel

theorem main_does {env : Env} {args : List Str} (hw : env.wasm = false) (hl : args.getLast? ≠ some [])
    (hh : c!"--help" ∉ args) (he : c!"--expint" ∉ args) {rss : List (List (ParseResult × Str))}
    (hb : Processed env.disk env.data (inputFile args) (rss.map (List.map Prod.snd))) (hp : Parsed rss.flatten)
    {lines : List (Nat × Str)} (ht : Tally (unknownTexts (inputFile args) (allGroups (counted (inputFile args) rss))) lines) :
    Does (FineReports false env.disk env.data env.clock (inputFile args) rss ∧
        (c!"--nogroups" ∉ args → FineGroups env.clock rss.length (inputFile args) (allGroups rss.flatten)))
      (main env args) fun r =>
      r.1 = printedText args env.clock env.sizeOf (announced env.disk env.data (inputFile args)) (inputFile args) rss lines ∧
        Left (inputFile args) env.disk r.2 rss.flatten := by
  obtain ⟨p, h1, h2⟩ := setParameters hl
  have hfiles : (!p.inputFromInternalTestData) = (inputFile args != none) := by
    rw [h2.asks.internal]
    rfl
  have hunf : main env args =
      (checkReports env p { disk := (Archiver.make (inputFile args != none) env.disk).1,
                            archiver := (Archiver.make (inputFile args != none) env.disk).2 }).bind fun st =>
      (stepIf p.printErrorReports listErrors st).bind fun st =>
      (stepIf p.printUnknownGroups (listUnknown p) st).bind fun st =>
      (stepIf p.checkGroupPerformance (checkGroups env) st).bind fun st =>
      .ok ((if p.printDataSize then st.print (printDataSize env.sizeOf) else st).out,
        (if p.printDataSize then st.print (printDataSize env.sizeOf) else st).disk) := by
    rw [main, h1]
    simp only [bind, Except.bind, hw, Bool.false_eq_true, if_false, h2.help, hh, h2.exporting, he, decide_false, hfiles]
  rw [hunf]
  clear hunf
  have asks := h2.asks
  generalize hinput : inputFile args = input at *
  have hrep : input = none → ∃ rs, rss = List.replicate 300 rs := by
    intro hi
    subst hi
    exact replicate_parsed hp hb
  obtain ⟨_, _, _, hnl⟩ := openSource_eq asks hb
  have hnl' : input ≠ none → ∀ r ∈ rss.flatten, '\n' ∉ r.2 := by
    intro hi r hr
    refine hnl hi _ ?_
    rw [← List.map_flatten]
    exact List.mem_map_of_mem hr
  have hraw : ∀ x ∈ allGroups rss.flatten, '\n' ∉ x.rawString := by
    intro x hx
    rw [allGroups, List.mem_flatMap] at hx
    obtain ⟨r, hr, hx⟩ := hx
    exact raw_line (hp r hr) x hx
  have hmain := checkReports_does asks hb hp (by rw [hw]; intro h; cases h)
  rw [hw] at hmain
  refine Does.cond (good := FineReports false env.disk env.data env.clock input rss ∧ (True ∧ (True ∧
    ((c!"--nogroups" ∉ args → FineGroups env.clock rss.length input (allGroups rss.flatten)) ∧ True)))) ?_ (by simp)
  refine hmain.bind fun st1 ⟨r1, o1, d1⟩ => ?_
  have hkept := r1.kept
  rw [archived, hw, if_neg (by simp)] at hkept
  -- the second section
  have s2 : Does True (stepIf p.printErrorReports listErrors st1) fun st' =>
      st' = st1.print (if c!"--noerror" ∈ args then [] else errorText input rss.flatten) := by
    rw [stepIf, h2.errors]
    by_cases hx : c!"--noerror" ∈ args
    · simp only [hx, decide_true, Bool.not_true, Bool.false_eq_true, if_false, if_true]
      exact Does.ok (by simp [State.print])
    · simp only [hx, decide_false, Bool.not_false, if_true, if_false]
      exact listErrors_does hw r1 hnl'
  refine s2.bind fun st2 e2 => ?_
  have r2 : Reached env (input != none) st2 rss.flatten rss.length := by
    subst e2
    exact ⟨r1.kept, r1.sorted, r1.report, r1.group, r1.other, r1.measured, r1.start, r1.reportCount, r1.groupCount⟩
  have s3 : Does True (stepIf p.printUnknownGroups (listUnknown p) st2) fun st' =>
      st' = st2.print (if c!"--nounkn" ∈ args then [] else unknownText lines) := by
    rw [stepIf, h2.unknown]
    by_cases hx : c!"--nounkn" ∈ args
    · simp only [hx, decide_true, Bool.not_true, Bool.false_eq_true, if_false, if_true]
      exact Does.ok (by simp [State.print])
    · simp only [hx, decide_false, Bool.not_false, if_true, if_false]
      exact listUnknown_does asks hw r2 hrep hraw lines ht
  refine s3.bind fun st3 e3 => ?_
  have m3 : st3.measured = rss.length := by rw [e3, ← r2.measured]; rfl
  have d3 : st3.disk = st1.disk := by rw [e3, e2]; rfl
  have o3 : st3.out = st1.out ++ (if c!"--noerror" ∈ args then [] else errorText input rss.flatten) ++
      (if c!"--nounkn" ∈ args then [] else unknownText lines) := by rw [e3, e2]; rfl
  have s4 : Does (c!"--nogroups" ∉ args → FineGroups env.clock rss.length input (allGroups rss.flatten))
      (stepIf p.checkGroupPerformance (checkGroups env) st3) fun st' =>
      st'.out = st3.out ++ (if c!"--nogroups" ∈ args then [] else groupText env.clock rss.length input (allGroups rss.flatten)) ∧
        st'.disk = st3.disk := by
    rw [stepIf, h2.groups]
    by_cases hx : c!"--nogroups" ∈ args
    · simp only [hx, decide_true, Bool.not_true, Bool.false_eq_true, if_false, if_true, not_true_eq_false, false_implies]
      exact Does.ok ⟨by simp, rfl⟩
    · simp only [hx, decide_false, Bool.not_false, if_true, if_false, not_false_eq_true, true_implies]
      rw [← m3]
      refine checkGroups_does ⟨⟨errorTexts rss.flatten, ?_⟩, hraw⟩ ?_ ?_
      · rw [e3, e2]
        exact hkept
      · rw [e3]
        exact r2.sorted
      · intro k hk
        rw [e3]
        refine r2.other k ?_ ?_
        · rintro rfl
          revert hk
          decide
        · rintro rfl
          revert hk
          decide
  refine s4.bind fun st4 ⟨o4, d4⟩ => ?_
  refine Does.ok ⟨?_, ?_⟩
  · rw [h2.size]
    by_cases hx : c!"--nosize" ∈ args
    · simp only [hx, decide_true, Bool.not_true, Bool.false_eq_true, if_false, o4, o3, o1, printedText, if_true,
        List.append_nil]
    · simp only [hx, decide_false, Bool.not_false, if_true, State.print, sizeText_eq, o4, o3, o1, printedText, if_false]
  · have hd : (if p.printDataSize = true then st4.print (printDataSize env.sizeOf) else st4).disk = st1.disk := by
      rw [← d3, ← d4]
      split <;> rfl
    rw [hd]
    refine ⟨?_, ?_, ?_, ?_⟩
    · intro n hn
      refine d1 n ?_
      rw [touched]
      split
      · rwa [← ownFiles_eq]
      · simp
    · intro hi
      subst hi
      funext n
      exact d1 n (by simp [touched])
    · intro hi
      rw [← errorLines_eq]
      exact (hkept.onDisk (by simpa using hi)).2
    · intro hi k hk q hq
      rw [← kinds_eq] at hk
      obtain ⟨j, hj, rfl⟩ := List.mem_map.mp hk
      have hj' := List.mem_range.mp hj
      rw [← fileName_index j hj' q hq, ← textsAt_eq _ j hj']
      refine (hkept.onDisk (by simpa using hi)).1 _ ?_
      have : reportPartIndex q.1 < 5 := by cases q.1 <;> exact Nat.le_of_ble_eq_true rfl
      simp only [groupIndex, reportPartSize, groupSize] at hj' ⊢
      omega

/-- The web version. -/
theorem main_web {env : Env} {args : List Str} (hw : env.wasm = true) (hl : args.getLast? ≠ some [])
    {rss : List (List (ParseResult × Str))}
    (hb : Processed env.disk env.data none (rss.map (List.map Prod.snd))) (hp : Parsed rss.flatten) :
    Does (FineReports true env.disk env.data env.clock none rss) (main env args) fun r =>
      r.1 = overallText true env.clock (announced env.disk env.data none) none rss ∧ r.2 = env.disk := by
  obtain ⟨p, h1, -⟩ := setParameters hl
  have hunf : main env args =
      (checkReports env setWasmParameters { disk := (Archiver.make ((none : Option Str) != none) env.disk).1,
                                            archiver := (Archiver.make ((none : Option Str) != none) env.disk).2 }).bind
        fun st => .ok (st.out, st.disk) := by
    rw [main, h1]
    have e1 : setWasmParameters.help = false := rfl
    have e2 : setWasmParameters.exportInternalTestData = false := rfl
    have e3 : setWasmParameters.printErrorReports = false := rfl
    have e4 : setWasmParameters.printUnknownGroups = false := rfl
    have e5 : setWasmParameters.checkGroupPerformance = false := rfl
    have e6 : setWasmParameters.printDataSize = false := rfl
    have e7 : (!setWasmParameters.inputFromInternalTestData) = ((none : Option Str) != none) := rfl
    simp only [bind, Except.bind, hw, if_true, e1, e2, e3, e4, e5, e6, e7, stepIf, Bool.false_eq_true, if_false]
  have hmain := checkReports_does (env := env) (params := setWasmParameters) (input := none) ⟨rfl, by simp⟩ hb hp (fun _ => rfl)
  rw [hw] at hmain
  rw [hunf]
  refine Does.cond (hmain.bind fun st1 ⟨r1, o1, d1⟩ => Does.ok ⟨o1, ?_⟩) (by simp)
  funext n
  exact d1 n (by simp [touched])

/-- A file which does not exist. -/
theorem main_missing {env : Env} {args : List Str} (hw : env.wasm = false) (hl : args.getLast? ≠ some [])
    (hh : c!"--help" ∉ args) (he : c!"--expint" ∉ args) {name : Str} (hi : inputFile args = some name)
    (hd : opened env.disk (some name) name = none) : main env args = .error .cannotOpen := by
  obtain ⟨p, h1, h2⟩ := setParameters hl
  have asks := h2.asks
  rw [hi] at asks
  have hf := asks.internal
  have hn := asks.file name rfl
  rw [opened_eq] at hd
  have hm : (Archiver.make true env.disk).1 name = none := hd
  have hf' : p.inputFromInternalTestData = false := hf
  have hcheck : ∀ st : State, st.disk = (Archiver.make true env.disk).1 → checkReports env p st = .error .cannotOpen := by
    intro st hst
    simp only [checkReports, openSource, State.print, hf', hst, hn, Batch.fromFile, hm, bind, Except.bind,
      Bool.false_eq_true, if_false]
  rw [main, h1]
  simp only [bind, Except.bind, hw, Bool.false_eq_true, if_false, h2.help, hh, h2.exporting, he, decide_false, hf',
    Bool.not_false]
  rw [hcheck _ rfl]

/-- Help and export. -/
theorem main_help {env : Env} {args : List Str} (hw : env.wasm = false) (hl : args.getLast? ≠ some [])
    (hh : c!"--help" ∈ args) : main env args = .ok (helpText, opened env.disk (inputFile args)) := by
  obtain ⟨p, h1, h2⟩ := setParameters hl
  have hfiles : (!p.inputFromInternalTestData) = (inputFile args != none) := by
    rw [h2.asks.internal]
    rfl
  rw [main, h1, opened_eq]
  simp only [bind, Except.bind, hw, Bool.false_eq_true, if_false, h2.help, hh, decide_true, if_true, hfiles]

theorem main_export {env : Env} {args : List Str} (hw : env.wasm = false) (hl : args.getLast? ≠ some [])
    (hh : c!"--help" ∉ args) (he : c!"--expint" ∈ args) :
    ∃ t, main env args = .ok (t, fun n => if n = c!"testdatareal.txt" then some (exportText env.data)
      else opened env.disk (inputFile args) n) := by
  obtain ⟨p, h1, h2⟩ := setParameters hl
  have hfiles : (!p.inputFromInternalTestData) = (inputFile args != none) := by
    rw [h2.asks.internal]
    rfl
  refine ⟨c!"Exporting internal test data to " ++ exportFile ++ c!"\n" ++ c!"Internal test data export complete\n\n", ?_⟩
  rw [main, h1, opened_eq]
  simp only [bind, Except.bind, hw, Bool.false_eq_true, if_false, h2.help, hh, h2.exporting, he, decide_false,
    decide_true, if_true, hfiles]
  rfl

theorem main_empty {env : Env} {args : List Str} (hl : args.getLast? = some []) : main env args = .error .behindArgument := by
  rw [main, setParameters_empty hl]
  rfl

end Metaf.Performance
