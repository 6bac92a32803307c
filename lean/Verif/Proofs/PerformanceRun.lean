import Verif.Proofs.Archives
import Verif.Proofs.Frequencies
import Verif.Props.Tutorial

/-! The check of performance: what the state of the program is after the reports. -/

namespace Metaf.Performance

open Metaf Metaf.Spec Metaf.Props

variable [FloatIeee]

theorem parsed_exists (reports : List Str) : ∃ rs, Parsed rs ∧ rs.map Prod.snd = reports := by
  induction reports with
  | nil => exact ⟨[], by simp [Parsed], rfl⟩
  | cons a reports ih =>
    obtain ⟨rs, h1, h2⟩ := ih
    obtain ⟨r, hr, -⟩ := C01_parse_total a 200
    refine ⟨(r, a) :: rs, ?_, by simp [h2]⟩
    intro x hx
    rcases List.mem_cons.mp hx with rfl | hx
    · exact hr
    · exact h1 x hx

theorem parsed_unique {rs rs' : List (ParseResult × Str)} (h : Parsed rs) (h' : Parsed rs')
    (he : rs.map Prod.snd = rs'.map Prod.snd) : rs = rs' := by
  induction rs generalizing rs' with
  | nil => cases rs' <;> simp at he ⊢
  | cons a rs ih =>
    cases rs' with
    | nil => simp at he
    | cons b rs' =>
      simp only [List.map_cons, List.cons.injEq] at he
      have h1 := h a (by simp)
      have h2 := h' b (by simp)
      rw [he.1, h2] at h1
      have : a = b := Prod.ext (by injection h1 with h1; exact h1.symm) he.1
      rw [this, ih (fun x hx => h x (by simp [hx])) (fun x hx => h' x (by simp [hx])) he.2]

theorem mapM_parsed {rs : List (ParseResult × Str)} (h : Parsed rs) :
    (rs.map Prod.snd).mapM (fun report => call (Parser.parse report)) = Except.ok (ε := Failure) (rs.map Prod.fst) := by
  induction rs with
  | nil => rfl
  | cons a rs ih =>
    rw [List.map_cons, List.mapM_cons, h a (by simp), ih fun x hx => h x (by simp [hx])]
    rfl

omit [FloatIeee] in
theorem zip_parsed (rs : List (ParseResult × Str)) : (rs.map Prod.fst).zip (rs.map Prod.snd) = rs := by
  induction rs with
  | nil => rfl
  | cons a rs ih => simp [ih]

omit [FloatIeee] in
theorem countGroups_all (rs : List (ParseResult × Str)) : countGroups (rs.map Prod.fst) = (allGroups rs).length := by
  simp [countGroups, allGroups, List.length_flatMap, List.map_map, Function.comp_def]

/-- The time of the first measurements. -/
def timeOf (env : Env) (n : Nat) : Nat := ((List.range n).map env.clock).sum % uint64Range

omit [FloatIeee] in
theorem timeOf_succ (env : Env) (n : Nat) : (timeOf env n + env.clock n % uint64Range) % uint64Range = timeOf env (n + 1) := by
  simp [timeOf, List.range_succ, Nat.add_mod]

/-- What is archived: nothing in the web version. -/
def archived (env : Env) (rs : List (ParseResult × Str)) : List (ParseResult × Str) := if env.wasm then [] else rs

/-- The state after these reports and `n` batches. -/
structure Reached (env : Env) (files : Bool) (st : State) (rs : List (ParseResult × Str)) (n : Nat) : Prop where
  kept : Kept files st.disk st.archiver (textsAt (allGroups (archived env rs))) (errorTexts (archived env rs))
  sorted : Sorted st.stats
  report : Map.get? c!"report" st.stats = if n = 0 then none else some ⟨timeOf env n, rs.length⟩
  group : Map.get? c!"group" st.stats = if n = 0 then none else some ⟨timeOf env n, (allGroups rs).length⟩
  other : ∀ k, k ≠ c!"report" → k ≠ c!"group" → Map.get? k st.stats = none
  measured : st.measured = n
  start : n = 0 → rs = []
  reportCount : st.reportCount = rs.length
  groupCount : st.groupCount = (allGroups rs).length

/-- The line on the progress. -/
def progressLine (size : Nat) (rs : List (ParseResult × Str)) : Str :=
  c!"Processed " ++ Explain.showNat rs.length ++ c!" reports of " ++ Explain.showNat size ++ c!" (" ++
    Explain.showNat (rs.length * 100 / size) ++ c!"%), " ++ Explain.showNat (allGroups rs).length ++ c!" groups parsed\n"

omit [FloatIeee] in
theorem allGroups_append (a b : List (ParseResult × Str)) : allGroups (a ++ b) = allGroups a ++ allGroups b := by
  simp [allGroups]

omit [FloatIeee] in
theorem toStats_reached {env : Env} {files : Bool} {st : State} {rs0 rs : List (ParseResult × Str)} {n : Nat}
    (h : Reached env files st rs0 n) :
    ∃ st', { toStats (rs.map Prod.fst) (st.microsec env) st with measured := st.measured + 1 } = st' ∧
      st'.disk = st.disk ∧ st'.archiver = st.archiver ∧ st'.out = st.out ∧ Sorted st'.stats ∧
      Map.get? c!"report" st'.stats = some ⟨timeOf env (n + 1), (rs0 ++ rs).length⟩ ∧
      Map.get? c!"group" st'.stats = some ⟨timeOf env (n + 1), (allGroups (rs0 ++ rs)).length⟩ ∧
      (∀ k, k ≠ c!"report" → k ≠ c!"group" → Map.get? k st'.stats = none) ∧ st'.measured = n + 1 ∧
      st'.reportCount = (rs0 ++ rs).length ∧ st'.groupCount = (allGroups (rs0 ++ rs)).length := by
  have hne : (c!"report" : Str) ≠ c!"group" := by decide
  have ht : st.microsec env = env.clock n % uint64Range := by rw [State.microsec, h.measured]
  have h0 : n = 0 → env.clock n % uint64Range % uint64Range = timeOf env (n + 1) := by
    intro h0
    rw [← timeOf_succ]
    subst h0
    simp [timeOf]
  refine ⟨_, rfl, rfl, rfl, rfl, ?_, ?_, ?_, ?_, ?_, ?_, ?_⟩
  · exact update_sorted _ _ _ (update_sorted _ _ _ h.sorted)
  · simp only [toStats, Stats.add]
    rw [get?_update _ _ _ _ (update_sorted _ _ _ h.sorted), if_neg hne, get?_update _ _ _ _ h.sorted, if_pos rfl,
      h.report, ht]
    by_cases hn : n = 0
    · rw [if_pos hn, h.start hn]
      simp only [Option.getD_none, h0 hn, List.length_map, Nat.zero_add, List.nil_append]
    · rw [if_neg hn]
      simp only [Option.getD_some, timeOf_succ, List.length_map, List.length_append]
  · simp only [toStats, Stats.add]
    rw [get?_update _ _ _ _ (update_sorted _ _ _ h.sorted), if_pos rfl, get?_update _ _ _ _ h.sorted,
      if_neg (Ne.symm hne), h.group, ht]
    by_cases hn : n = 0
    · rw [if_pos hn, h.start hn]
      simp only [Option.getD_none, h0 hn, countGroups_all, Nat.zero_add, List.nil_append]
    · rw [if_neg hn]
      simp only [Option.getD_some, timeOf_succ, countGroups_all, allGroups_append, List.length_append]
  · intro k h1 h2
    simp only [toStats, Stats.add]
    rw [get?_update _ _ _ _ (update_sorted _ _ _ h.sorted), if_neg h2, get?_update _ _ _ _ h.sorted, if_neg h1]
    exact h.other k h1 h2
  · simp [h.measured]
  · simp [toStats, h.reportCount]
  · simp [toStats, h.groupCount, countGroups_all, allGroups_append]

omit [FloatIeee] in
theorem textsAt_append (a b : List GroupInfo) : (fun i => textsAt a i ++ textsAt b i) = textsAt (a ++ b) := by
  funext i
  simp [textsAt]

omit [FloatIeee] in
theorem errorTexts_append (a b : List (ParseResult × Str)) : errorTexts a ++ errorTexts b = errorTexts (a ++ b) := by
  simp [errorTexts]

/-- One batch. -/
theorem testBatch_reached {env : Env} {files : Bool} {st : State} {rs0 : List (ParseResult × Str)} {n size : Nat}
    (h : Reached env files st rs0 n) (rs : List (ParseResult × Str)) (hp : Parsed rs)
    (hn : files = true → ∀ r ∈ rs, '\n' ∉ r.2) (hf : files = true → env.wasm = false)
    (hz : env.wasm = true ∨ size ≠ 0) :
    Ends files (∃ r ∈ rs, Empty r) (testBatch env size st (rs.map Prod.snd)) fun st' =>
      Reached env files st' (rs0 ++ rs) (n + 1) ∧
        st'.out = st.out ++ (if env.wasm then [] else progressLine size (rs0 ++ rs)) ∧
        ∀ k, k ∉ touched files → st'.disk k = st.disk k := by
  obtain ⟨st1, e1, d1, a1, o1, s1, r1, g1, k1, m1, c1, c2⟩ := toStats_reached (rs := rs) h
  have hk := h.kept
  have hb : testBatch env size st (rs.map Prod.snd) =
      if env.wasm then .ok st1
      else (toArchives st1.disk st1.archiver rs).bind fun r =>
        verbosePrintBatch size { st1 with disk := r.1, archiver := r.2 } := by
    rw [testBatch, mapM_parsed hp]
    simp only [bind, Except.bind, zip_parsed, ← e1]
  rw [hb]
  by_cases hw : env.wasm = true
  · have hfalse : files = false := by
      cases hfl : files with
      | false => rfl
      | true => have := hf hfl; rw [hw] at this; cases this
    rw [if_pos hw]
    refine Or.inr ⟨by simp [hfalse], st1, rfl, ⟨?_, s1, ?_, ?_, k1, m1, by simp, c1, c2⟩, by simp [hw, o1], fun k _ => by rw [d1]⟩
    · rw [archived, if_pos hw] at hk ⊢
      rw [d1, a1]
      exact hk
    · rw [r1, if_neg (by simp)]
    · rw [g1, if_neg (by simp)]
  · have hz' := hz.resolve_left hw
    rw [if_neg hw]
    rw [archived, if_neg hw, ← d1, ← a1] at hk
    have hraw : ∀ r ∈ rs, (files = true → '\n' ∉ r.2) ∧ ∀ x ∈ r.1.groups, '\n' ∉ x.rawString := fun r hr =>
      ⟨fun hfl => hn hfl r hr, raw_line (hp r hr)⟩
    rcases toArchives_kept hk rs hraw with ⟨b1, b2, b3⟩ | ⟨b1, r, b2, b3, b4⟩
    · exact Or.inl ⟨b1, b2, by rw [b3]; rfl⟩
    · refine Or.inr ⟨b1, (({ st1 with disk := r.1, archiver := r.2 } : State).print (progressLine size (rs0 ++ rs))), ?_, ?_, ?_, ?_⟩
      · rw [b2]
        simp only [Except.bind, verbosePrintBatch, if_neg hz', c1, c2]
        rfl
      · refine ⟨?_, s1, ?_, ?_, k1, m1, by simp, c1, c2⟩
        · rw [archived, if_neg hw, allGroups_append, ← textsAt_append, ← errorTexts_append]
          exact b3
        · simp only [State.print]
          rw [r1, if_neg (by simp)]
        · simp only [State.print]
          rw [g1, if_neg (by simp)]
      · simp [State.print, o1, hw]
      · intro k hk
        simp only [State.print]
        rw [b4 k hk, d1]

/-- The lines on the progress after these batches. -/
def progress (size : Nat) : List (ParseResult × Str) → List (List (ParseResult × Str)) → Str
  | _, [] => []
  | rs0, rs :: rss => progressLine size (rs0 ++ rs) ++ progress size (rs0 ++ rs) rss

/-- All batches. -/
theorem batches_reached {env : Env} {files : Bool} {st : State} {rs0 : List (ParseResult × Str)} {n size : Nat}
    (h : Reached env files st rs0 n) (rss : List (List (ParseResult × Str))) (hp : Parsed rss.flatten)
    (hn : files = true → ∀ r ∈ rss.flatten, '\n' ∉ r.2) (hf : files = true → env.wasm = false)
    (hz : env.wasm = true ∨ size ≠ 0) :
    Ends files (∃ r ∈ rss.flatten, Empty r) ((rss.map (List.map Prod.snd)).foldlM (testBatch env size) st) fun st' =>
      Reached env files st' (rs0 ++ rss.flatten) (n + rss.length) ∧
        st'.out = st.out ++ (if env.wasm then [] else progress size rs0 rss) ∧
        ∀ k, k ∉ touched files → st'.disk k = st.disk k := by
  induction rss generalizing st rs0 n with
  | nil =>
    refine Or.inr ⟨by simp, st, rfl, by simpa using h, ?_, fun k _ => rfl⟩
    cases env.wasm <;> simp [progress]
  | cons rs rss ih =>
    rw [List.flatten_cons] at hp hn
    have hp1 : Parsed rs := fun r hr => hp r (by simp [hr])
    have hp2 : Parsed rss.flatten := fun r hr => hp r (List.mem_append_right _ hr)
    have hn1 : files = true → ∀ r ∈ rs, '\n' ∉ r.2 := fun hfl r hr => hn hfl r (by simp [hr])
    have hn2 : files = true → ∀ r ∈ rss.flatten, '\n' ∉ r.2 := fun hfl r hr => hn hfl r (List.mem_append_right _ hr)
    rw [List.map_cons, List.foldlM_cons]
    rcases testBatch_reached h rs hp1 hn1 hf hz with ⟨b1, ⟨r, b2, b2'⟩, b3⟩ | ⟨b1, st1, b2, b3, b4, b5⟩
    · exact Or.inl ⟨b1, ⟨r, by simp [b2], b2'⟩, by rw [b3]; rfl⟩
    · rw [b2]
      rcases ih b3 hp2 hn2 with ⟨c1, ⟨r, c2, c2'⟩, c3⟩ | ⟨c1, st2, c2, c3, c4, c5⟩
      · exact Or.inl ⟨c1, ⟨r, List.mem_append_right _ c2, c2'⟩, c3⟩
      · refine Or.inr ⟨?_, st2, c2, ?_, ?_, fun k hk => by rw [c5 k hk, b5 k hk]⟩
        · rintro ⟨d1, r, d2, d3⟩
          rw [List.flatten_cons] at d2
          rcases List.mem_append.mp d2 with d2 | d2
          · exact b1 ⟨d1, r, d2, d3⟩
          · exact c1 ⟨d1, r, d2, d3⟩
        · rw [List.flatten_cons, ← List.append_assoc, List.length_cons, Nat.add_comm rss.length 1, ← Nat.add_assoc]
          exact c3
        · rw [c4, b4]
          cases env.wasm <;> simp [progress]

/-- The results of batches. -/
theorem batches_exist (bs : List (List Str)) :
    ∃ rss : List (List (ParseResult × Str)), rss.map (List.map Prod.snd) = bs ∧ Parsed rss.flatten := by
  induction bs with
  | nil => exact ⟨[], rfl, by simp [Parsed]⟩
  | cons b bs ih =>
    obtain ⟨rss, h1, h2⟩ := ih
    obtain ⟨rs, h3, h4⟩ := parsed_exists b
    refine ⟨rs :: rss, by simp [h1, h4], ?_⟩
    intro r hr
    rw [List.flatten_cons] at hr
    rcases List.mem_append.mp hr with hr | hr
    · exact h3 r hr
    · exact h2 r hr

omit [FloatIeee] in
/-- The state at the beginning. -/
theorem start_reached (env : Env) (files : Bool) (out : Str) :
    Reached env files { disk := (Archiver.make files env.disk).1, archiver := (Archiver.make files env.disk).2, out := out } [] 0 := by
  refine ⟨?_, List.Pairwise.nil, rfl, rfl, fun _ _ _ => rfl, rfl, fun _ => rfl, rfl, rfl⟩
  have := (make_kept files env.disk).1
  simp only [archived, ite_self]
  exact this

end Metaf.Performance
