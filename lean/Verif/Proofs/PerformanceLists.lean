import Verif.Proofs.PerformanceText

/-! The check of performance: the lists of reports with errors and of groups not recognised. -/

namespace Metaf.Performance

open Metaf Metaf.Spec Metaf.Props

/-! ### Errors -/

theorem errorName_eq (e : ReportError) : reportErrorName e = errorName e := by cases e <;> decide

theorem errorName_line (e : ReportError) : '\n' ∉ errorName e := by cases e <;> decide

theorem errorLines_eq (rs : List (ParseResult × Str)) : errorTexts rs = errorLines rs := by
  rw [errorTexts, errorLines]
  refine congrArg (List.flatMap · rs) ?_
  funext r
  by_cases h : r.1.reportMetadata.error = .NONE
  · simp [h]
  · simp [h, errorName_eq]

theorem errorLines_length (rs : List (ParseResult × Str)) :
    (errorLines rs).length = 2 * (rs.filter fun r => r.1.reportMetadata.error ≠ .NONE).length := by
  induction rs with
  | nil => rfl
  | cons r rs ih =>
    have : errorLines (r :: rs) = errorLines [r] ++ errorLines rs := by simp [errorLines]
    rw [this, List.length_append, ih, List.filter_cons]
    by_cases h : r.1.reportMetadata.error = .NONE
    · simp [errorLines, h]
    · simp [errorLines, h]
      omega

theorem shown_again (input : Option Str) (ls : List Str) : shown (input != none) ls = again input ls := by
  cases input <;> rfl

theorem listErrors_does {env : Env} {input : Option Str} {st : State} {rs : List (ParseResult × Str)} {n : Nat}
    (hw : env.wasm = false) (h : Reached env (input != none) st rs n) (hn : input ≠ none → ∀ r ∈ rs, '\n' ∉ r.2) :
    Does True (listErrors st) fun st' => st' = st.print (errorText input rs) := by
  have hk := h.kept
  rw [archived, hw, if_neg (by simp), errorLines_eq] at hk
  obtain ⟨h1, h2⟩ := read_errors hk (by
    intro hi s hs
    rw [errorLines, List.mem_flatMap] at hs
    obtain ⟨r, hr, hs⟩ := hs
    split at hs
    · cases hs
    · simp only [List.mem_cons, List.not_mem_nil, or_false] at hs
      rcases hs with rfl | rfl
      · exact errorName_line _
      · exact hn (by simpa using hi) r hr)
  rw [errorLines_length] at h2
  refine Or.inl ⟨trivial, _, ?_, rfl⟩
  simp only [listErrors, Archiver.printErrorReports, h2, h1, errorText]
  generalize hb : (rs.filter fun r => decide (r.1.reportMetadata.error ≠ .NONE)) = bad
  cases bad with
  | nil => rfl
  | cons b bad =>
    rw [if_neg (by simp), if_neg (by simp), Nat.mul_div_cancel_left _ (Nat.le_of_ble_eq_true rfl), shown_again]
    rfl

/-! ### Texts of groups -/

theorem kindOf_eq (g : Group) : kindOf g = groupName g.index := by cases g <;> rfl

theorem groupName_inj : ∀ i < 22, ∀ j < 22, groupName i = groupName j → i = j := by decide +kernel

theorem index_lt (g : Group) : g.index < 22 := by cases g <;> exact Nat.le_of_ble_eq_true rfl

theorem textsAt_eq (gs : List GroupInfo) (k : Nat) (hk : k < 22) (p : ReportPart) :
    textsAt gs (groupIndex k (reportPartIndex p)) = textsOf (groupName k) p gs := by
  rw [textsAt, textsOf]
  congr 1
  refine List.filter_congr ?_
  intro x _
  refine decide_eq_decide.mpr ?_
  rw [place_eq, kindOf_eq]
  refine and_congr_left fun _ => ⟨fun h => by rw [h], groupName_inj _ (index_lt _) _ hk⟩

/-! ### Tallies -/

theorem char_lt (a b : Char) : a < b ↔ a.toNat < b.toNat := Iff.rfl

theorem strLt_iff (s t : Str) : strLt s t = true ↔ s < t := by
  induction s generalizing t with
  | nil =>
    cases t with
    | nil => simp [strLt]
    | cons b t => simp [strLt]
  | cons a s ih =>
    cases t with
    | nil => simp [strLt]
    | cons b t =>
      rw [List.cons_lt_cons_iff, strLt, Bool.or_eq_true, Bool.and_eq_true, ih, beq_iff_eq, decide_eq_true_iff, char_lt,
        Char.toNat_inj]

theorem tally_of {m : Map Nat} (hm : Sorted m) (hp : ∀ e ∈ m, 0 < e.2) {texts : List Str}
    (h : ∀ s, (Map.get? s m).getD 0 = texts.count s) : Tally texts (Frequency.descending m) := by
  refine ⟨?_, ?_⟩
  · intro n s
    rw [(descending_perm m).mem_iff, List.mem_map]
    constructor
    · rintro ⟨⟨k, v⟩, hx, he⟩
      obtain ⟨rfl, rfl⟩ := Prod.mk.inj he
      have hv := hp _ hx
      rw [mem_iff_get? hm] at hx
      have := h k
      rw [hx, Option.getD_some] at this
      refine ⟨?_, this⟩
      rw [← List.count_pos_iff, ← this]
      exact hv
    · rintro ⟨h1, h2⟩
      refine ⟨(s, n), ?_, rfl⟩
      rw [mem_iff_get? hm]
      have := h s
      have hc := List.count_pos_iff.mpr h1
      rw [← h2] at this hc
      cases hg : Map.get? s m with
      | none => rw [hg, Option.getD_none] at this; omega
      | some v => rw [hg, Option.getD_some] at this; rw [this]
  · refine (descending_sorted hm).imp ?_
    rintro a b (hab | hab)
    · exact Or.inl hab
    · exact Or.inr ⟨hab.1, (strLt_iff _ _).mp hab.2⟩

theorem tally_unique {texts : List Str} {l l' : List (Nat × Str)} (h : Tally texts l) (h' : Tally texts l') : l = l' := by
  have irr : ∀ a : Nat × Str, ¬ (a.1 < a.1 ∨ a.1 = a.1 ∧ a.2 < a.2) := by
    rintro a (h | h)
    · omega
    · have := (strLt_iff _ _).mpr h.2
      rw [strLt_irrefl] at this
      cases this
  have nd : ∀ l : List (Nat × Str), (l.Pairwise fun a b => b.1 < a.1 ∨ b.1 = a.1 ∧ b.2 < a.2) → l.Nodup := by
    intro l hl
    rw [List.nodup_iff_pairwise_ne]
    refine hl.imp ?_
    rintro a b hab rfl
    exact irr a hab
  refine List.Perm.eq_of_pairwise (le := fun a b => b.1 < a.1 ∨ b.1 = a.1 ∧ b.2 < a.2) ?_ h.order h'.order ?_
  · intro a b _ _ h1 h2
    exfalso
    rcases h1 with h1 | h1 <;> rcases h2 with h2 | h2
    · omega
    · omega
    · omega
    · have := strLt_trans ((strLt_iff _ _).mpr h1.2) ((strLt_iff _ _).mpr h2.2)
      rw [strLt_irrefl] at this
      cases this
  · refine (List.perm_ext_iff_of_nodup (nd _ h.order) (nd _ h'.order)).mpr ?_
    rintro ⟨n, s⟩
    rw [h.counted, h'.counted]

/-! ### Groups not recognised -/

theorem addUnknown {files : Bool} {disk : Disk} {a : Archiver} {gs : List GroupInfo} {errs : List Str}
    (h : Kept files disk a (textsAt gs) errs) (hn : ∀ x ∈ gs, '\n' ∉ x.rawString) (ps : List ReportPart) (m : Map Nat) :
    ps.foldlM (fun stats part => (a.getBatchGroup disk 21 part).bind fun src => Frequency.addAll src stats) m =
      .ok ((ps.flatMap fun p => shown files (textsOf c!"UnknownGroup" p gs)).foldl Frequency.add m) := by
  have hn' : ∀ i, ∀ s ∈ textsAt gs i, '\n' ∉ s := by
    intro i s hs
    rw [textsAt, List.mem_map] at hs
    obtain ⟨x, hx, rfl⟩ := hs
    exact hn x (List.mem_filter.mp hx).1
  induction ps generalizing m with
  | nil => rfl
  | cons p ps ih =>
    obtain ⟨src, bs, h1, h2, h3, -⟩ := read_group h hn' 21 p (Nat.le_of_ble_eq_true rfl)
    have h4 : textsAt gs (groupIndex 21 (reportPartIndex p)) = textsOf c!"UnknownGroup" p gs :=
      textsAt_eq gs 21 (Nat.le_of_ble_eq_true rfl) p
    rw [h4] at h3
    have h5 : (Except.bind (ε := Failure) (Except.ok src) fun src => Frequency.addAll src m) =
        .ok (bs.flatten.foldl Frequency.add m) := by
      simp only [Except.bind, Frequency.addAll, h2, Except.map]
      rw [foldl_flatten]
    rw [List.foldlM_cons, h1, List.flatMap_cons, List.foldl_append, ← h3, h5]
    exact ih _

theorem get?_map (f : Nat → Nat) (m : Map Nat) (s : Str) :
    Map.get? s (m.map fun e => (e.1, f e.2)) = (Map.get? s m).map f := by
  induction m with
  | nil => rfl
  | cons x m ih =>
    obtain ⟨k, v⟩ := x
    rw [List.map_cons, get?_cons, get?_cons, ih]
    split <;> rfl

theorem sorted_map (f : Nat → Nat) {m : Map Nat} (h : Sorted m) : Sorted (m.map fun e => (e.1, f e.2)) := by
  rw [Sorted, List.pairwise_map]
  exact h

theorem count_flatMap_replicate {α : Type} (f : α → List Str) (n : Nat) (l : List α) (s : Str) :
    ((List.replicate n l).flatten.flatMap f).count s = n * (l.flatMap f).count s := by
  induction n with
  | zero => simp
  | succ n ih =>
    rw [List.replicate_succ, List.flatten_cons, List.flatMap_append, List.count_append, ih]
    ring

theorem count_textsOf_replicate (kind : Str) (p : ReportPart) (n : Nat) (l : List GroupInfo) (s : Str) :
    (textsOf kind p (List.replicate n l).flatten).count s = n * (textsOf kind p l).count s := by
  induction n with
  | zero => simp [textsOf]
  | succ n ih =>
    rw [List.replicate_succ, List.flatten_cons]
    have : ∀ a b, textsOf kind p (a ++ b) = textsOf kind p a ++ textsOf kind p b := by
      intro a b
      simp [textsOf]
    rw [this, List.count_append, ih]
    ring

theorem allGroups_replicate (n : Nat) (rs : List (ParseResult × Str)) :
    allGroups (List.replicate n rs).flatten = (List.replicate n (allGroups rs)).flatten := by
  induction n with
  | zero => rfl
  | succ n ih => rw [List.replicate_succ, List.flatten_cons, allGroups_append, ih, List.replicate_succ, List.flatten_cons]

theorem count_unknownTexts_replicate (n : Nat) (l : List GroupInfo) (s : Str) :
    (unknownTexts none (List.replicate n l).flatten).count s = n * (unknownTexts none l).count s := by
  simp only [unknownTexts, again, partsOf, List.flatMap_cons, List.flatMap_nil, List.append_nil, List.count_append,
    ne_eq, not_true_eq_false, if_false, count_textsOf_replicate]
  ring

theorem listUnknown_does {env : Env} {params : CommandLineParameters} {input : Option Str} (ha : Asks params input)
    {st : State} {rss : List (List (ParseResult × Str))} {n : Nat}
    (hw : env.wasm = false) (h : Reached env (input != none) st rss.flatten n)
    (hrep : input = none → ∃ rs, rss = List.replicate 300 rs)
    (hraw : ∀ x ∈ allGroups rss.flatten, '\n' ∉ x.rawString)
    (lines : List (Nat × Str)) (hl : Tally (unknownTexts input (allGroups (counted input rss))) lines) :
    Does True (listUnknown params st) fun st' => st' = st.print (unknownText lines) := by
  have hk := h.kept
  rw [archived, hw, if_neg (by simp)] at hk
  have hu := addUnknown hk hraw [ReportPart.UNKNOWN, .HEADER, .METAR, .TAF, .RMK] []
  have hflat : ([ReportPart.UNKNOWN, .HEADER, .METAR, .TAF, .RMK].flatMap fun p =>
      shown (input != none) (textsOf c!"UnknownGroup" p (allGroups rss.flatten))) =
        unknownTexts input (allGroups rss.flatten) := by
    simp only [unknownTexts, partsOf, shown_again]
    rfl
  rw [hflat] at hu
  obtain ⟨hs, hc⟩ := frequency_add (m := []) List.Pairwise.nil (unknownTexts input (allGroups rss.flatten))
  have hp := frequency_pos (m := []) List.Pairwise.nil (by simp) (unknownTexts input (allGroups rss.flatten))
  generalize hm : (unknownTexts input (allGroups rss.flatten)).foldl Frequency.add [] = m at hu hs hc hp
  have hc' : ∀ s, (Map.get? s m).getD 0 = (unknownTexts input (allGroups rss.flatten)).count s := by
    intro s
    rw [hc s]
    simp [Map.get?]
  have hfin : ∃ m', unknownStats st params = .ok m' ∧ Frequency.descending m' = lines := by
    cases input with
    | some name =>
      refine ⟨m, ?_, tally_unique (tally_of hs hp hc') hl⟩
      rw [unknownStats, hu]
      change (if params.inputFromInternalTestData = true then _ else _) = _
      rw [ha.internal, if_neg (by simp)]
    | none =>
      obtain ⟨rs, hr⟩ := hrep rfl
      have hcount : ∀ s, (Map.get? s m).getD 0 = 300 * (unknownTexts none (allGroups rs)).count s := by
        intro s
        rw [hc' s, hr, allGroups_replicate, count_unknownTexts_replicate]
      have hhead : counted none rss = rs := by
        rw [hr, counted, List.replicate_succ]
        rfl
      rw [hhead] at hl
      refine ⟨m.map fun e => (e.1, e.2 / 300), ?_, ?_⟩
      · rw [unknownStats, hu]
        change (if params.inputFromInternalTestData = true then _ else _) = _
        rw [ha.internal, if_pos (by simp), Frequency.compensateRepetitions]
        cases m with
        | nil => rfl
        | cons x m =>
          rw [if_neg (by simp), if_neg (by simp [testDataRealRepetitions])]
          rfl
      · refine tally_unique (tally_of (sorted_map (fun v => v / 300) hs) ?_ ?_) hl
        · intro e he
          obtain ⟨x, hx, rfl⟩ := List.mem_map.mp he
          have h1 := hp x hx
          obtain ⟨k, v⟩ := x
          have h2 := hcount k
          rw [(mem_iff_get? hs k v).mp hx, Option.getD_some] at h2
          simp only at h1 ⊢
          omega
        · intro s
          have h2 := hcount s
          rw [get?_map (fun v => v / 300)]
          cases hg : Map.get? s m with
          | none =>
            rw [hg, Option.getD_none] at h2
            simp only [Option.map_none, Option.getD_none]
            omega
          | some v =>
            rw [hg, Option.getD_some] at h2
            simp only [Option.map_some, Option.getD_some]
            omega
  obtain ⟨m', h1, h2⟩ := hfin
  refine Or.inl ⟨trivial, _, ?_, rfl⟩
  simp only [listUnknown, h1, bind, Except.bind, unknownText, Frequency.printDescending, h2]
  rfl

/-- There is a list of groups not recognised. -/
theorem tally_exists (texts : List Str) : ∃ lines, Tally texts lines := by
  obtain ⟨hs, hc⟩ := frequency_add (m := []) List.Pairwise.nil texts
  refine ⟨_, tally_of hs (frequency_pos (m := []) List.Pairwise.nil (by simp) texts) fun s => ?_⟩
  rw [hc s]
  simp [Map.get?]

end Metaf.Performance
