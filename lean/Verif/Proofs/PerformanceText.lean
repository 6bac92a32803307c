import Verif.Proofs.PerformanceRun

/-! The check of performance: what the sections of the program print. -/

namespace Metaf.Performance

open Metaf Metaf.Spec Metaf.Props

variable [FloatIeee]

/-- A part of the program succeeds exactly under a condition. -/
def Does {α : Type} (good : Prop) (run : Run α) (P : α → Prop) : Prop :=
  (good ∧ ∃ r, run = .ok r ∧ P r) ∨
    (¬ good ∧ ∃ f, run = .error f ∧ f ∈ [Failure.emptyString, .divisionByZero])

omit [FloatIeee] in
theorem Does.bind {α β : Type} {good good' : Prop} {run : Run α} {next : α → Run β} {P : α → Prop} {Q : β → Prop}
    (h : Does good run P) (h' : ∀ r, P r → Does good' (next r) Q) : Does (good ∧ good') (run.bind next) Q := by
  rcases h with ⟨h1, r, rfl, h2⟩ | ⟨h1, f, rfl, h2⟩
  · rcases h' r h2 with ⟨h3, r', h4, h5⟩ | ⟨h3, f, h4, h5⟩
    · exact Or.inl ⟨⟨h1, h3⟩, r', h4, h5⟩
    · exact Or.inr ⟨fun h => h3 h.2, f, h4, h5⟩
  · exact Or.inr ⟨fun h => h1 h.1, f, rfl, h2⟩

omit [FloatIeee] in
theorem Ends.does {α : Type} {files : Bool} {bad : Prop} {run : Run α} {P : α → Prop} (h : Ends files bad run P) :
    Does (¬ (files = true ∧ bad)) run P := by
  rcases h with ⟨h1, h2, h3⟩ | ⟨h1, h2⟩
  · exact Or.inr ⟨fun h => h ⟨h1, h2⟩, _, h3, by simp⟩
  · exact Or.inl ⟨h1, h2⟩

omit [FloatIeee] in
theorem Does.ok {α : Type} {P : α → Prop} {r : α} (h : P r) : Does True (.ok r) P := Or.inl ⟨trivial, r, rfl, h⟩

omit [FloatIeee] in
theorem Does.cond {α : Type} {good good' : Prop} {run : Run α} {P : α → Prop} (h : Does good run P) (hg : good ↔ good') :
    Does good' run P := by
  rcases h with ⟨h1, h2⟩ | ⟨h1, h2⟩
  · exact Or.inl ⟨hg.mp h1, h2⟩
  · exact Or.inr ⟨fun h => h1 (hg.mpr h), h2⟩

omit [FloatIeee] in
theorem Does.imp {α : Type} {good : Prop} {run : Run α} {P Q : α → Prop} (h : Does good run P) (hg : ∀ r, P r → Q r) :
    Does good run Q := by
  rcases h with ⟨h1, r, h2, h3⟩ | ⟨h1, h2⟩
  · exact Or.inl ⟨h1, r, h2, hg r h3⟩
  · exact Or.inr ⟨h1, h2⟩

omit [FloatIeee] in
theorem Does.mapM {α β : Type} {good : α → Prop} {f : α → Run β} {g : α → β} (l : List α)
    (h : ∀ a ∈ l, Does (good a) (f a) (· = g a)) : Does (∀ a ∈ l, good a) (l.mapM f) (· = l.map g) := by
  induction l with
  | nil => exact Or.inl ⟨by simp, [], rfl, rfl⟩
  | cons a l ih =>
    rw [List.mapM_cons]
    refine Does.cond (good := good a ∧ ∀ x ∈ l, good x) ?_ (by simp)
    refine (h a (by simp)).bind fun b hb => ?_
    rcases ih fun x hx => h x (by simp [hx]) with ⟨h1, r, h2, h3⟩ | ⟨h1, f, h2, h3⟩
    · refine Or.inl ⟨h1, b :: r, ?_, by simp [hb, h3]⟩
      rw [h2]
      rfl
    · refine Or.inr ⟨h1, f, ?_, h3⟩
      rw [h2]
      rfl

/-! ### Numbers and rates -/

omit [FloatIeee] in
theorem quantity_text (name : Str) (n : Nat) : quantity name n = countText name n := by
  rw [quantity, countText]
  by_cases h0 : n = 0
  · rw [if_pos h0, if_pos h0]
  · rw [if_neg h0, if_neg h0]
    by_cases h1 : n = 1
    · subst h1
      have : Explain.showNat 1 = c!"1" := by decide
      simp [this]
    · rw [if_neg h1, if_pos (by omega)]
      simp [Explain.showNat, num]

omit [FloatIeee] in
theorem print_does {name : Str} {stats : Map Data} {t n : Nat} (h : Map.get? name stats = some ⟨t, n⟩) :
    Does (n = 0 ∨ t ≠ 0) (Stats.print name stats) (· = rateLine name n t) := by
  simp only [Stats.print, h, rateLine, quantity_text, uint64Range]
  by_cases hn : n = 0
  · simp only [if_pos hn]
    exact Or.inl ⟨Or.inl hn, _, rfl, rfl⟩
  · simp only [if_neg hn]
    by_cases ht : t = 0
    · rw [if_pos ht]
      exact Or.inr ⟨by simp [hn, ht], _, rfl, by simp⟩
    · rw [if_neg ht]
      exact Or.inl ⟨Or.inr ht, _, rfl, rfl⟩

omit [FloatIeee] in
theorem timeFrom_timeOf (env : Env) (n : Nat) : timeFrom env.clock 0 n = timeOf env n := by
  simp [timeFrom, timeOf, uint64Range]

omit [FloatIeee] in
theorem progress_eq (size : Nat) (rs0 : List (ParseResult × Str)) (rss : List (List (ParseResult × Str))) :
    progress size rs0 rss =
      (List.range rss.length).flatMap fun i => progressLine size (rs0 ++ (rss.take (i + 1)).flatten) := by
  induction rss generalizing rs0 with
  | nil => rfl
  | cons rs rss ih =>
    rw [progress, ih, List.length_cons, List.range_succ_eq_map, List.flatMap_cons, List.flatMap_map]
    simp

omit [FloatIeee] in
theorem progress_text (size : Nat) (rss : List (List (ParseResult × Str))) :
    progress size [] rss = progressText size rss := by
  rw [progress_eq, progressText]
  rfl

/-! ### Files -/

omit [FloatIeee] in
theorem ownFiles_eq : ownFiles = errorFile :: archiveNames := by decide +kernel

omit [FloatIeee] in
theorem opened_eq (disk : Disk) (input : Option Str) :
    opened disk input = (Archiver.make (input != none) disk).1 := by
  funext n
  have hk := make_kept (input != none) disk
  cases input with
  | none =>
    rw [hk.2.1 rfl]
    simp [opened]
  | some name =>
    by_cases hn : n ∈ ownFiles
    · have : (Archiver.make (some name != none) disk).1 n = some [] := by
        rw [ownFiles_eq] at hn
        have hd := hk.1.onDisk rfl
        rcases List.mem_cons.mp hn with rfl | hn
        · exact hd.2
        · obtain ⟨i, hi, he⟩ := List.getElem_of_mem hn
          have hi' := hi
          rw [archiveNames_length] at hi'
          have h1 := fileName_get hi'
          rw [List.getElem?_eq_getElem hi, he] at h1
          rw [Option.some.inj h1]
          exact hd.1 i hi'
      rw [this]
      simp [opened, hn]
    · rw [hk.2.2 n (by rw [touched, ← ownFiles_eq]; exact hn)]
      simp [opened, hn]

/-! ### The first section -/

omit [FloatIeee] in
theorem getReports_eq (data : List (Str × Str)) : getReports data = internalReports data := by
  rw [getReports, internalReports]
  refine congrArg (List.flatMap · data) ?_
  funext d
  obtain ⟨a, b⟩ := d
  cases a <;> cases b <;> simp [List.filter]

/-- The parameters agree with the input. -/
structure Asks (params : CommandLineParameters) (input : Option Str) : Prop where
  internal : params.inputFromInternalTestData = (input == none)
  file : ∀ name, input = some name → params.inputFile = name

omit [FloatIeee] in
theorem fileLines_noNewline {text : Str} {ls : List Str} (h : FileLines text ls) : ∀ s ∈ ls, '\n' ∉ s := by
  induction h with
  | nil => simp
  | last _ h => simpa using h
  | cons h _ ih =>
    intro s hs
    rcases List.mem_cons.mp hs with rfl | hs
    · exact h
    · exact ih s hs

omit [FloatIeee] in
theorem openSource_eq {env : Env} {params : CommandLineParameters} {input : Option Str} (ha : Asks params input)
    {bs : List (List Str)} (hb : Processed env.disk env.data input bs) :
    ∃ src, openSource env (Archiver.make (input != none) env.disk).1 params =
        .ok (src, announced env.disk env.data input) ∧ src.all = .ok bs ∧
      (input ≠ none → ∀ s ∈ bs.flatten, '\n' ∉ s) := by
  cases input with
  | none =>
    have h1 := ha.internal
    have hb' : bs = List.replicate 300 (internalReports env.data) := hb
    refine ⟨.testdata (getReports env.data) testDataRealRepetitions, ?_, ?_, by simp⟩
    · rw [openSource, h1, if_pos (by simp)]
      simp only [announced, getReports_eq, testDataRealRepetitions]
    · rw [all_testdata, hb', getReports_eq]
      rfl
  | some name =>
    have h1 := ha.internal
    have h2 := ha.file name rfl
    obtain ⟨text, ls, h3, h4, h5⟩ := hb
    rw [opened_eq] at h3
    obtain ⟨src, bs', h6, h7, h8⟩ := all_file (k := inputBatchSize) (Nat.le_of_ble_eq_true rfl) h3 h4
    have := unique_inBatches (Nat.le_of_ble_eq_true rfl) h5 h8
    subst this
    refine ⟨src, ?_, h7, ?_⟩
    · rw [openSource, h1, if_neg (by simp), h2, h6]
      simp only [announced, opened_eq, fileTotalSize]
      rfl
    · intro _ s hs
      rw [flatten_inBatches h5, inFullBatches] at hs
      split at hs
      · exact fileLines_noNewline h4 s hs
      · exact fileLines_noNewline h4 s (List.mem_of_mem_take hs)

theorem testBatch_zero {env : Env} {files : Bool} {st : State} {rs0 : List (ParseResult × Str)} {n : Nat}
    (h : Reached env files st rs0 n) (rs : List (ParseResult × Str)) (hp : Parsed rs)
    (hn : files = true → ∀ r ∈ rs, '\n' ∉ r.2) (hw : env.wasm = false) :
    ∃ f, testBatch env 0 st (rs.map Prod.snd) = .error f ∧ f ∈ [Failure.emptyString, .divisionByZero] := by
  obtain ⟨st1, e1, d1, a1, -⟩ := toStats_reached (rs := rs) h
  have hk := h.kept
  have hb : testBatch env 0 st (rs.map Prod.snd) =
      (toArchives st1.disk st1.archiver rs).bind fun r =>
        verbosePrintBatch 0 { st1 with disk := r.1, archiver := r.2 } := by
    rw [testBatch, mapM_parsed hp]
    simp only [bind, Except.bind, zip_parsed, ← e1, hw, Bool.false_eq_true, if_false]
  rw [hb]
  rw [archived, hw, if_neg (by simp), ← d1, ← a1] at hk
  have hraw : ∀ r ∈ rs, (files = true → '\n' ∉ r.2) ∧ ∀ x ∈ r.1.groups, '\n' ∉ x.rawString := fun r hr =>
    ⟨fun hfl => hn hfl r hr, raw_line (hp r hr)⟩
  rcases toArchives_kept hk rs hraw with ⟨b1, b2, b3⟩ | ⟨b1, r, b2, b3, b4⟩
  · exact ⟨.emptyString, by rw [b3]; rfl, by simp⟩
  · exact ⟨.divisionByZero, by rw [b2]; rfl, by simp⟩

omit [FloatIeee] in
theorem not_empty_iff (r : ParseResult × Str) :
    ¬ Empty r ↔ (r.1.reportMetadata.error ≠ .NONE → r.2 ≠ []) ∧ ∀ x ∈ r.1.groups, x.rawString ≠ [] := by
  rw [Empty, not_or, not_and]
  refine and_congr_right fun _ => ?_
  constructor
  · intro h x hx he
    exact h ⟨x, hx, he⟩
  · rintro h ⟨x, hx, he⟩
    exact h x hx he

theorem checkReports_does {env : Env} {params : CommandLineParameters} {input : Option Str} (ha : Asks params input)
    {rss : List (List (ParseResult × Str))} (hb : Processed env.disk env.data input (rss.map (List.map Prod.snd)))
    (hp : Parsed rss.flatten) (hw : env.wasm = true → input = none) :
    Does (FineReports env.wasm env.disk env.data env.clock input rss)
      (checkReports env params { disk := (Archiver.make (input != none) env.disk).1, archiver := (Archiver.make (input != none) env.disk).2 })
      fun st => Reached env (input != none) st rss.flatten rss.length ∧
        st.out = overallText env.wasm env.clock (announced env.disk env.data input) input rss ∧
        ∀ k, k ∉ touched (input != none) → st.disk k = env.disk k := by
  obtain ⟨src, h1, h2, h3⟩ := openSource_eq ha hb
  have hn : (input != none) = true → ∀ r ∈ rss.flatten, '\n' ∉ r.2 := by
    intro hi r hr
    refine h3 (by simpa using hi) _ ?_
    rw [← List.map_flatten]
    exact List.mem_map_of_mem hr
  have hf : (input != none) = true → env.wasm = false := by
    intro hi
    cases hwasm : env.wasm with
    | false => rfl
    | true => rw [hw hwasm] at hi; simp at hi
  have hone : rss ≠ [] := by
    intro h0
    subst h0
    cases input with
    | none =>
      have hb : [] = List.replicate 300 (internalReports env.data) := hb
      have := congrArg List.length hb
      rw [List.length_replicate, List.length_nil] at this
      omega
    | some name =>
      obtain ⟨text, ls, -, -, h5⟩ := hb
      have := length_inBatches (Nat.le_of_ble_eq_true rfl) h5
      simp at this
      omega
  have hlen : rss.length ≠ 0 := by simpa using hone
  have hunf : ∀ st : State, st.disk = (Archiver.make (input != none) env.disk).1 → checkReports env params st =
      ((rss.map (List.map Prod.snd)).foldlM (testBatch env (announced env.disk env.data input))
        { st with reportCount := 0, groupCount := 0
                  out := st.out ++ (c!"Checking overall parser performance\n" ++
                    if params.inputFromInternalTestData then c!"Using internal data set\n"
                    else c!"Using data set from file " ++ params.inputFile ++ c!"\n") ++
                    (c!"Test set size is " ++ Explain.showNat (announced env.disk env.data input) ++ c!"\n") }).bind fun st =>
      (Stats.print c!"report" st.stats).bind fun r => (Stats.print c!"group" st.stats).bind fun g =>
        .ok (st.print (c!"\n" ++ r ++ g ++ c!"\n")) := by
    intro st hd
    simp only [checkReports, State.print, hd, h1, testReports, h2, bind, Except.bind]
  rw [hunf _ rfl]
  clear hunf
  have hstart := start_reached env (input != none) ([] ++ (c!"Checking overall parser performance\n" ++
                    if params.inputFromInternalTestData then c!"Using internal data set\n"
                    else c!"Using data set from file " ++ params.inputFile ++ c!"\n") ++
                    (c!"Test set size is " ++ Explain.showNat (announced env.disk env.data input) ++ c!"\n"))
  by_cases hz : env.wasm = true ∨ announced env.disk env.data input ≠ 0
  · have h4 := batches_reached hstart rss hp hn hf hz
    have h5 := h4.does
    refine Does.cond (good := ¬ ((input != none) = true ∧ ∃ r ∈ rss.flatten, Empty r) ∧
      ((rss.flatten.length = 0 ∨ timeOf env rss.length ≠ 0) ∧
        (((allGroups rss.flatten).length = 0 ∨ timeOf env rss.length ≠ 0) ∧ True))) ?_ ?_
    · refine h5.bind fun st ⟨r1, r2, r3⟩ => ?_
      rw [List.nil_append, Nat.zero_add] at r1
      have hr := r1.report
      have hg := r1.group
      rw [if_neg hlen] at hr hg
      refine (print_does hr).bind fun t1 ht1 => (print_does hg).bind fun t2 ht2 => Does.ok ⟨?_, ?_, ?_⟩
      · exact ⟨r1.kept, r1.sorted, r1.report, r1.group, r1.other, r1.measured, r1.start, r1.reportCount, r1.groupCount⟩
      · subst ht1
        subst ht2
        simp only [State.print, r2, overallText, progress_text, timeFrom_timeOf, List.nil_append, ha.internal]
        cases input with
        | none => simp [num, Explain.showNat]
        | some name => simp [num, Explain.showNat, ha.file name rfl]
      · intro k hk
        simp only [State.print]
        rw [r3 k hk]
        exact (make_kept (input != none) env.disk).2.2 k hk
    · constructor
      · rintro ⟨c1, c2, c3, -⟩
        refine ⟨fun hw => hz.resolve_left (by simp [hw]), fun hc x hx => (not_empty_iff x).mp fun hx' => c1 ⟨by simpa using hc, x, hx, hx'⟩, ?_⟩
        rw [timeFrom_timeOf]
        by_cases ht : timeOf env rss.length = 0
        · simp only [ht, ne_eq, not_true_eq_false, or_false, List.length_eq_zero_iff] at c2 c3
          exact Or.inl ⟨c2, c3⟩
        · exact Or.inr ht
      · rintro ⟨c1, c2, c3⟩
        rw [timeFrom_timeOf] at c3
        refine ⟨fun ⟨d1, r, d2, d3⟩ => (not_empty_iff r).mpr (c2 (by simpa using d1) r d2) d3, ?_, ?_, trivial⟩
        · rcases c3 with c3 | c3
          · exact Or.inl (by rw [c3.1]; rfl)
          · exact Or.inr c3
        · rcases c3 with c3 | c3
          · exact Or.inl (by rw [c3.2]; rfl)
          · exact Or.inr c3
  · rw [not_or, not_not, Bool.not_eq_true] at hz
    refine Or.inr ⟨fun hc => hc.size hz.1 hz.2, ?_⟩
    cases rss with
    | nil => exact absurd rfl hone
    | cons rs rss =>
      rw [hz.2] at hstart ⊢
      obtain ⟨f, c1, c2⟩ := testBatch_zero hstart rs (fun r hr => hp r (by simp [hr]))
        (fun hfl r hr => hn hfl r (by simp [hr])) hz.1
      refine ⟨f, ?_, c2⟩
      rw [List.map_cons, List.foldlM_cons]
      exact congrArg (fun x => Except.bind (Except.bind x _) _) c1

end Metaf.Performance
