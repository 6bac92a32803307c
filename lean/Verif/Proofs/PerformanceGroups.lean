import Verif.Proofs.PerformanceLists

/-! The check of performance: the test of the groups. -/

namespace Metaf.Performance

open Metaf Metaf.Spec Metaf.Props

variable [FloatIeee]

/-! ### Parsing groups again -/

theorem append_all {g : Group} (hg : g.Inv) (part : ReportPart) (md : ReportMetadata) (ws : List Str) :
    ∃ g', ws.foldlM (fun g w => call ((g.append w part md).map Prod.fst)) g = Except.ok (ε := Failure) g' := by
  induction ws generalizing g with
  | nil => exact ⟨g, rfl⟩
  | cons w ws ih =>
    obtain ⟨r, h1, h2, -⟩ := Group.append_ok hg w part md
    obtain ⟨g', h3⟩ := ih h2
    refine ⟨g', ?_⟩
    rw [List.foldlM_cons, h1]
    exact h3

theorem parseAgain_ok (part : ReportPart) (md : ReportMetadata) {ws : List Str} (h : ws ≠ []) :
    ∃ g, parseAgain part md ws = .ok g := by
  cases ws with
  | nil => exact absurd rfl h
  | cons s ws =>
    obtain ⟨g, h1, h2⟩ := GroupParser.parse_ok s part md
    obtain ⟨g', h3⟩ := append_all h2 part md ws
    refine ⟨g', ?_⟩
    rw [parseAgain, h1]
    exact h3

omit [FloatIeee] in
theorem getline_isSome {d : Char} {s : Str} (h : s ≠ []) : ∃ r, getline d s = some r := by
  cases s with
  | nil => exact absurd rfl h
  | cons c s =>
    rw [getline]
    split
    · exact ⟨_, rfl⟩
    · split <;> exact ⟨_, rfl⟩

omit [FloatIeee] in
theorem splitToGroups_ne {s : Str} (h : s ≠ []) : splitToGroups s ≠ [] := by
  obtain ⟨r, hr⟩ := getline_isSome (d := ' ') h
  cases s with
  | nil => exact absurd rfl h
  | cons c s =>
    rw [splitToGroups, List.length_cons, splitLoop, hr]
    simp

omit [FloatIeee] in
theorem mapM_all {α β : Type} {f : α → Run β} (l : List α) (h : ∀ a ∈ l, ∃ b, f a = .ok b) : ∃ bs, l.mapM f = .ok bs := by
  induction l with
  | nil => exact ⟨[], rfl⟩
  | cons a l ih =>
    obtain ⟨b, hb⟩ := h a (by simp)
    obtain ⟨bs, hbs⟩ := ih fun x hx => h x (by simp [hx])
    refine ⟨b :: bs, ?_⟩
    rw [List.mapM_cons, hb, hbs]
    rfl

/-! ### One kind -/

/-- The state while a kind is tested. -/
structure Testing (env : Env) (st0 st : State) (key : Str) (start n items : Nat) : Prop where
  disk : st.disk = st0.disk
  archiver : st.archiver = st0.archiver
  out : st.out = st0.out
  sorted : Sorted st.stats
  here : Map.get? key st.stats = if n = 0 then none else some ⟨timeFrom env.clock start n, items⟩
  zero : n = 0 → items = 0
  others : ∀ k, k ≠ key → Map.get? k st.stats = Map.get? k st0.stats
  measured : st.measured = start + n

omit [FloatIeee] in
theorem timeFrom_succ (clock : Nat → Nat) (start n : Nat) :
    (timeFrom clock start n + clock (start + n) % uint64Range) % uint64Range = timeFrom clock start (n + 1) := by
  simp [timeFrom, uint64Range, List.range_succ, Nat.add_mod]

omit [FloatIeee] in
theorem timeFrom_one (clock : Nat → Nat) (start : Nat) :
    clock start % uint64Range % uint64Range = timeFrom clock start 1 := by
  simp [timeFrom, uint64Range]

theorem testGroupBatch_ok {env : Env} {st0 st : State} {index start n items : Nat}
    (h : Testing env st0 st (groupName index) start n items) (part : ReportPart) (batch : List Str) :
    ∃ st', testGroupBatch env index part st batch = .ok st' ∧
      Testing env st0 st' (groupName index) start (n + 1) (items + (batch.filter fun s => s ≠ []).length) := by
  obtain ⟨bs, hbs⟩ := mapM_all (f := parseAgain part (makeDummyMetadata part)) (prepareBatch batch) (by
    intro ws hws
    rw [prepareBatch, List.mem_map] at hws
    obtain ⟨s, hs, rfl⟩ := hws
    refine parseAgain_ok _ _ (splitToGroups_ne ?_)
    rintro rfl
    simp at hs)
  have hlen : (prepareBatch batch).length = (batch.filter fun s => s ≠ []).length := by
    rw [prepareBatch, List.length_map]
    congr 1
    refine List.filter_congr ?_
    intro s _
    cases s <;> simp
  refine ⟨{ st with stats := Stats.add (groupName index) (st.microsec env) (prepareBatch batch).length st.stats
                    measured := st.measured + 1 }, by rw [testGroupBatch, hbs]; rfl, h.disk, h.archiver, h.out, ?_, ?_, by simp, ?_, ?_⟩
  · exact update_sorted _ _ _ h.sorted
  · rw [if_neg (by simp)]
    simp only [Stats.add]
    rw [get?_update _ _ _ _ h.sorted, if_pos rfl, h.here, State.microsec, h.measured, hlen]
    by_cases hn : n = 0
    · rw [if_pos hn, h.zero hn, hn]
      simp only [Option.getD_none, Nat.zero_add, Nat.add_zero, timeFrom_one]
    · rw [if_neg hn]
      simp only [Option.getD_some, timeFrom_succ]
  · intro k hk
    simp only [Stats.add]
    rw [get?_update _ _ _ _ h.sorted, if_neg hk]
    exact h.others k hk
  · simp only [h.measured, Nat.add_assoc]

theorem testGroupBatches_ok {env : Env} {st0 st : State} {index start n items : Nat}
    (h : Testing env st0 st (groupName index) start n items) (part : ReportPart) (bs : List (List Str)) :
    ∃ st', bs.foldlM (testGroupBatch env index part) st = .ok st' ∧
      Testing env st0 st' (groupName index) start (n + bs.length)
        (items + (bs.flatten.filter fun s => s ≠ []).length) := by
  induction bs generalizing st n items with
  | nil => exact ⟨st, rfl, by simpa using h⟩
  | cons b bs ih =>
    obtain ⟨st1, h1, h2⟩ := testGroupBatch_ok h part b
    obtain ⟨st2, h3, h4⟩ := ih h2
    refine ⟨st2, ?_, ?_⟩
    · rw [List.foldlM_cons, h1]
      exact h3
    · rw [List.flatten_cons, List.filter_append, List.length_append, List.length_cons, Nat.add_comm bs.length 1,
        ← Nat.add_assoc, ← Nat.add_assoc]
      exact h4

/-- The archives of the groups. -/
structure Stored (input : Option Str) (st : State) (gs : List GroupInfo) : Prop where
  kept : ∃ errs, Kept (input != none) st.disk st.archiver (textsAt gs) errs
  line : ∀ x ∈ gs, '\n' ∉ x.rawString

omit [FloatIeee] in
theorem Stored.of_eq {input : Option Str} {st st' : State} {gs : List GroupInfo} (h : Stored input st gs)
    (h1 : st'.disk = st.disk) (h2 : st'.archiver = st.archiver) : Stored input st' gs := by
  refine ⟨?_, h.line⟩
  rw [h1, h2]
  exact h.kept

/-- Measurements and groups of a kind in these parts. -/
def roundsIn (input : Option Str) (gs : List GroupInfo) (kind : Str) (ps : List ReportPart) : Nat :=
  (ps.map fun p => if input ≠ none then max 1 ((textsOf kind p gs).length / 1000) else 1).sum

def numberIn (input : Option Str) (gs : List GroupInfo) (kind : Str) (ps : List ReportPart) : Nat :=
  (ps.map fun p => ((again input (textsOf kind p gs)).filter fun s => s ≠ []).length).sum

theorem testGroupParts_ok {env : Env} {input : Option Str} {st0 st : State} {gs : List GroupInfo} {index start n items : Nat}
    (hs : Stored input st0 gs) (hi : index < 21)
    (h : Testing env st0 st (groupName index) start n items) (ps : List ReportPart) :
    ∃ st', ps.foldlM (testGroupReportPart env index) st = .ok st' ∧
      Testing env st0 st' (groupName index) start (n + roundsIn input gs (groupName index) ps)
        (items + numberIn input gs (groupName index) ps) := by
  induction ps generalizing st n items with
  | nil => exact ⟨st, rfl, by simpa [roundsIn, numberIn] using h⟩
  | cons p ps ih =>
    obtain ⟨⟨errs, hk⟩, hl⟩ := hs.of_eq h.disk h.archiver
    obtain ⟨src, bs, h1, h2, h3, h4⟩ := read_group hk (by
      intro i s hs
      rw [textsAt, List.mem_map] at hs
      obtain ⟨x, hx, rfl⟩ := hs
      exact hl x (List.mem_filter.mp hx).1) index p (by omega)
    rw [textsAt_eq gs index (by omega)] at h3 h4
    obtain ⟨st1, h5, h6⟩ := testGroupBatches_ok h p bs
    obtain ⟨st2, h7, h8⟩ := ih h6
    refine ⟨st2, ?_, ?_⟩
    · have : testGroupReportPart env index st p = .ok st1 := by
        rw [testGroupReportPart, if_neg (by omega), h1]
        change (src.all.bind fun bs => bs.foldlM (testGroupBatch env index p) st) = _
        rw [h2]
        exact h5
      rw [List.foldlM_cons, this]
      exact h7
    · have e1 : roundsIn input gs (groupName index) (p :: ps) = bs.length + roundsIn input gs (groupName index) ps := by
        rw [roundsIn, List.map_cons, List.sum_cons, roundsIn, h4]
        cases input <;> rfl
      have e2 : numberIn input gs (groupName index) (p :: ps) =
          (bs.flatten.filter fun s => s ≠ []).length + numberIn input gs (groupName index) ps := by
        rw [numberIn, List.map_cons, List.sum_cons, numberIn, h3, shown_again]
      rw [e1, e2, ← Nat.add_assoc, ← Nat.add_assoc]
      exact h8

omit [FloatIeee] in
theorem roundsIn_all (input : Option Str) (gs : List GroupInfo) (kind : Str) :
    roundsIn input gs kind [.UNKNOWN, .HEADER, .METAR, .TAF, .RMK] = measurements input gs kind := rfl

omit [FloatIeee] in
theorem numberIn_all (input : Option Str) (gs : List GroupInfo) (kind : Str) :
    numberIn input gs kind [.UNKNOWN, .HEADER, .METAR, .TAF, .RMK] = testedNumber input gs kind := rfl

omit [FloatIeee] in
theorem measurements_pos (input : Option Str) (gs : List GroupInfo) (kind : Str) : measurements input gs kind ≠ 0 := by
  simp only [measurements, partsOf, List.map_cons, List.sum_cons]
  cases input
  · simp
  · simp only [ne_eq, reduceCtorEq, not_false_eq_true, if_true]
    omega

theorem testGroupType_ok {env : Env} {input : Option Str} {st : State} {gs : List GroupInfo} {index : Nat}
    (hs : Stored input st gs) (hi : index < 21) (hsort : Sorted st.stats)
    (hnone : Map.get? (groupName index) st.stats = none) :
    ∃ st', testGroupType env st index = .ok st' ∧ st'.disk = st.disk ∧ st'.archiver = st.archiver ∧
      st'.out = st.out ++ (c!"Testing " ++ groupName index ++ c!"\n") ∧ Sorted st'.stats ∧
      st'.measured = st.measured + measurements input gs (groupName index) ∧
      Map.get? (groupName index) st'.stats =
        some ⟨timeFrom env.clock st.measured (measurements input gs (groupName index)),
          testedNumber input gs (groupName index)⟩ ∧
      ∀ k, k ≠ groupName index → Map.get? k st'.stats = Map.get? k st.stats := by
  generalize hp : st.print (c!"Testing " ++ groupName index ++ c!"\n") = st0
  have hs0 : Stored input st0 gs := hs.of_eq (by rw [← hp]; rfl) (by rw [← hp]; rfl)
  have h0 : Testing env st0 st0 (groupName index) st.measured 0 0 := by
    refine ⟨rfl, rfl, rfl, ?_, ?_, fun _ => rfl, fun _ _ => rfl, ?_⟩
    · rw [← hp]; exact hsort
    · rw [← hp]; exact hnone
    · rw [← hp]; rfl
  obtain ⟨st', h1, h2⟩ := testGroupParts_ok hs0 hi h0 [.UNKNOWN, .HEADER, .METAR, .TAF, .RMK]
  rw [roundsIn_all, numberIn_all, Nat.zero_add, Nat.zero_add] at h2
  refine ⟨st', ?_, ?_, ?_, ?_, h2.sorted, h2.measured, ?_, ?_⟩
  · rw [testGroupType, hp]
    exact h1
  · rw [h2.disk, ← hp]; rfl
  · rw [h2.archiver, ← hp]; rfl
  · rw [h2.out, ← hp]; rfl
  · rw [h2.here, if_neg (measurements_pos _ _ _)]
  · intro k hk
    rw [h2.others k hk, ← hp]; rfl

theorem testGroups_ok {env : Env} {input : Option Str} {st : State} {gs : List GroupInfo} (ks : List Nat)
    (hs : Stored input st gs) (hi : ∀ i ∈ ks, i < 21) (hnd : ks.Nodup) (hsort : Sorted st.stats)
    (hnone : ∀ i ∈ ks, Map.get? (groupName i) st.stats = none) :
    ∃ st', ks.foldlM (testGroupType env) st = .ok st' ∧ st'.disk = st.disk ∧ st'.archiver = st.archiver ∧
      st'.out = st.out ++ ((ks.map groupName).flatMap fun k => c!"Testing " ++ k ++ c!"\n") ∧ Sorted st'.stats ∧
      (∀ i ∈ ks, Map.get? (groupName i) st'.stats =
        some ⟨timeFrom env.clock
            (st.measured + (((ks.map groupName).takeWhile fun k => k ≠ groupName i).map (measurements input gs)).sum)
            (measurements input gs (groupName i)), testedNumber input gs (groupName i)⟩) ∧
      ∀ k, k ∉ ks.map groupName → Map.get? k st'.stats = Map.get? k st.stats := by
  induction ks generalizing st with
  | nil => exact ⟨st, rfl, rfl, rfl, by simp, hsort, by simp, fun _ _ => rfl⟩
  | cons a ks ih =>
    have hn := List.nodup_cons.mp hnd
    have hne : ∀ i ∈ ks, groupName i ≠ groupName a := by
      intro i hx he
      have := groupName_inj i (by have := hi i (by simp [hx]); omega) a (by have := hi a (by simp); omega) he
      exact hn.1 (this ▸ hx)
    obtain ⟨st1, h1, d1, a1, o1, s1, m1, g1, k1⟩ := testGroupType_ok (env := env) hs (hi a (by simp)) hsort (hnone a (by simp))
    obtain ⟨st2, h2, d2, a2, o2, s2, g2, k2⟩ := ih (hs.of_eq d1 a1) (fun i hx => hi i (by simp [hx])) hn.2 s1
      (fun i hx => by rw [k1 _ (hne i hx)]; exact hnone i (by simp [hx]))
    refine ⟨st2, ?_, by rw [d2, d1], by rw [a2, a1], ?_, s2, ?_, ?_⟩
    · rw [List.foldlM_cons, h1]
      exact h2
    · rw [o2, o1, List.map_cons, List.flatMap_cons, List.append_assoc]
    · intro i hx
      rcases List.mem_cons.mp hx with rfl | hx
      · have : groupName i ∉ ks.map groupName := by
          intro hm
          obtain ⟨j, hj, he⟩ := List.mem_map.mp hm
          exact hne j hj he
        rw [k2 _ this, g1, List.map_cons, List.takeWhile_cons_of_neg (by simp)]
        rfl
      · rw [g2 i hx, m1, List.map_cons, List.takeWhile_cons_of_pos (by simpa using Ne.symm (hne i hx)), List.map_cons,
          List.sum_cons, Nat.add_assoc]
    · intro k hk
      rw [List.map_cons, List.mem_cons, not_or] at hk
      rw [k2 k hk.2, k1 k hk.1]

/-! ### The fourth section -/

omit [FloatIeee] in
theorem testedKinds_eq : testedGroups.map groupName = testedKinds := by decide +kernel

omit [FloatIeee] in
theorem kinds_eq : (List.range groupSize).map groupName = kinds := by decide +kernel

theorem checkGroups_does {env : Env} {input : Option Str} {st : State} {gs : List GroupInfo}
    (hs : Stored input st gs) (hsort : Sorted st.stats) (hnone : ∀ k ∈ kinds, Map.get? k st.stats = none) :
    Does (FineGroups env.clock st.measured input gs) (checkGroups env st) fun st' =>
      st'.out = st.out ++ groupText env.clock st.measured input gs ∧ st'.disk = st.disk := by
  have hk : ∀ i < 22, groupName i ∈ kinds := by decide +kernel
  have hlt : ∀ i ∈ testedGroups, i < 21 := by decide
  obtain ⟨st1, h1, d1, a1, o1, s1, g1, k1⟩ := testGroups_ok (env := env) testedGroups
    (hs.of_eq (st' := st.print c!"Checking group performance\n") rfl rfl) hlt (by decide) hsort
    (fun i hi => hnone _ (hk i (by have := hlt i hi; omega)))
  rw [testedKinds_eq] at o1 g1 k1
  have hm : (st.print c!"Checking group performance\n").measured = st.measured := rfl
  rw [hm] at g1
  have hline : ∀ i ∈ List.range groupSize,
      Does (groupName i ∈ testedKinds → testedNumber input gs (groupName i) = 0 ∨
          kindTime env.clock st.measured input gs (groupName i) ≠ 0)
        (Stats.print (groupName i) st1.stats) (· =
          if groupName i ∈ testedKinds then
            rateLine (groupName i) (testedNumber input gs (groupName i)) (kindTime env.clock st.measured input gs (groupName i))
          else c!"No performance stats exist for " ++ groupName i ++ c!".\n") := by
    intro i hi
    by_cases ht : groupName i ∈ testedKinds
    · have hi' : i ∈ testedGroups := by
        rw [← testedKinds_eq] at ht
        obtain ⟨j, hj, he⟩ := List.mem_map.mp ht
        have := groupName_inj j (by have := hlt j hj; omega) i (List.mem_range.mp hi) he
        exact this ▸ hj
      refine Does.cond ((print_does (g1 i hi')).imp ?_) ?_
      · intro r hr
        rw [if_pos ht]
        exact hr
      · exact ⟨fun h _ => h, fun h => h ht⟩
    · have : Map.get? (groupName i) st1.stats = none := by
        rw [k1 _ ht]
        exact hnone _ (hk i (List.mem_range.mp hi))
      refine Or.inl ⟨fun h => absurd h ht, _, by rw [Stats.print, this], ?_⟩
      rw [if_neg ht]
  have hall := Does.mapM _ hline
  have hunf : checkGroups env st = ((List.range groupSize).mapM fun i => Stats.print (groupName i) st1.stats).bind fun t =>
      .ok (st1.print (c!"\n" ++ t.flatten ++ c!"\n")) := by
    have : testGroups env (st.print c!"Checking group performance\n") = .ok st1 := h1
    rw [checkGroups, this]
    simp only [bind, Except.bind, printGroupStats]
    cases ((List.range groupSize).mapM fun i => Stats.print (groupName i) st1.stats) <;> rfl
  rw [hunf]
  refine Does.cond (hall.bind fun t ht => Does.ok ⟨?_, ?_⟩) ?_
  · subst ht
    simp only [State.print, o1, groupText, ← kinds_eq, List.flatMap_def, List.append_assoc]
    simp only [List.map_map, Function.comp_def]
  · exact d1
  · rw [and_true, FineGroups]
    constructor
    · intro h k hk'
      have hk2 := hk'
      rw [← testedKinds_eq] at hk'
      obtain ⟨j, hj, rfl⟩ := List.mem_map.mp hk'
      exact h j (List.mem_range.mpr (by have := hlt j hj; simp only [groupSize]; omega)) hk2
    · intro h i _ hi
      exact h _ hi

end Metaf.Performance
