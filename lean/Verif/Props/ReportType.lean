import Verif.Proofs.ParserKeyword
import Verif.Props.Grammar

/-!
Properties C09, C11, C12, C16, C19 and C20: the type of the report, NIL and CNL, the order of
recognition and the keywords.
-/

set_option linter.unusedSectionVars false

namespace Metaf.Props

variable [FloatSem]

open Metaf.Parser Metaf.Spec

/-! ### C09 -/

theorem nilReport_nil {t : ReportType} {l : List Element} (h : NilReport t l) :
    ∃ p, l = p ++ [.nil] := by
  cases h with
  | plain | span => exact ⟨_, rfl⟩
  | @time _ h _ => exact ⟨h ++ [.time], by simp⟩

/-- C09. A report accepted without error is a METAR or a TAF, unless its last group is NIL. -/
theorem C09_type_known (report : Str) (limit : Nat) (r : ParseResult) (hr : Result report limit r)
    (he : r.reportMetadata.error = .NONE) :
    r.reportMetadata.type = .METAR ∨ r.reportMetadata.type = .TAF ∨
      (r.reportMetadata.type = .UNKNOWN ∧ ∃ pre gi, r.groups = pre ++ [gi] ∧
        gi.group = .keyword ⟨.NIL⟩) := by
  have h := C10_accepted report limit r hr he
  generalize ht : r.reportMetadata.type = t at h ⊢
  generalize hl : elements r.groups = l at h
  cases h with
  | nil hn =>
    obtain ⟨p, rfl⟩ := nilReport_nil hn
    cases t with
    | METAR => left; rfl
    | TAF => right; left; rfl
    | UNKNOWN =>
      refine Or.inr (Or.inr ⟨rfl, ?_⟩)
      simp only [elements] at hl
      obtain ⟨a, b, hab, ha, hb⟩ := List.map_eq_append_iff.mp hl
      obtain ⟨x, hx, hx'⟩ := List.map_eq_singleton_iff.mp hb
      refine ⟨a, x, by rw [hab, hx], ?_⟩
      exact elementOf_nil hx'
  | cnl | taf | tafRemarks => simp
  | metar | metarRemarks => simp
where
  elementOf_nil {g : Group} (h : elementOf g = .nil) : g = .keyword ⟨.NIL⟩ := by
    unfold elementOf at h
    split at h <;> first | rfl | (simp at h; done) | (split at h <;> simp at h)

section
attribute [local instance] exactFloat

example : ∃ r : ParseResult, Result c!"ZZZZ 041115Z 0412/0512 CAVOK" 200 r ∧
    r.reportMetadata.error = .NONE ∧ r.reportMetadata.type = .TAF := by
  refine ⟨{ reportMetadata := _, groups := _ }, rfl, ?_⟩
  decide +kernel

/-- The exception occurs. -/
example : ∃ r : ParseResult, Result c!"ZZZZ NIL" 200 r ∧
    r.reportMetadata.error = .NONE ∧ r.reportMetadata.type = .UNKNOWN := by
  refine ⟨{ reportMetadata := _, groups := _ }, rfl, ?_⟩
  decide +kernel

end

/-! ### C11 -/

theorem mark_mem {t : ReportType} {m : List Element} (h : Mark t m) :
    (.amd ∈ m → t = .TAF) ∧ .cnl ∉ m ∧ .maintenance ∉ m ∧ .nil ∉ m ∧ .rmk ∉ m := by
  cases t with
  | UNKNOWN => have h : m = [] := h; subst h; simp
  | METAR => rcases h with rfl | rfl | rfl | rfl <;> simp
  | TAF => rcases h with rfl | rfl | rfl <;> simp

theorem head_mem {t : ReportType} {m : List Element} (h : Head t m) :
    (.amd ∈ m → t = .TAF) ∧ .cnl ∉ m ∧ .maintenance ∉ m ∧ .nil ∉ m ∧ .rmk ∉ m := by
  obtain ⟨m, hm, rfl⟩ := h
  have := mark_mem hm
  simpa using this

theorem metarStart_mem {h : List Element} {e : Element} (hs : MetarStart h e) :
    .amd ∉ h ∧ .cnl ∉ h ∧ .maintenance ∉ h ∧ .nil ∉ h ∧ .rmk ∉ h := by
  obtain ⟨d, rfl, hd | ⟨hd, -⟩⟩ := hs
  · have := head_mem hd
    simp only [reduceCtorEq, imp_false] at this
    simpa using this
  · have := head_mem hd
    simp only [reduceCtorEq, imp_false] at this
    simpa using this

theorem tafStart_mem {h : List Element} (hs : TafStart h) :
    .cnl ∉ h ∧ .maintenance ∉ h ∧ .nil ∉ h ∧ .rmk ∉ h := by
  obtain ⟨d, ⟨hd, rfl⟩ | ⟨hd | hd, rfl⟩⟩ := hs
  all_goals
    have := (head_mem hd).2
    simpa using this

theorem accepted_mem {t : ReportType} {l : List Element} (h : Accepted t l) :
    (.amd ∈ l → t = .TAF) ∧ (.cnl ∈ l → t = .TAF) ∧ (.maintenance ∈ l → t = .METAR) := by
  cases h with
  | nil hn =>
    cases hn with
    | plain hh => have := head_mem hh; simpa using ⟨this.1, fun h => absurd h this.2.1, fun h => absurd h this.2.2.1⟩
    | time hh => have := head_mem hh; simpa using ⟨this.1, fun h => absurd h this.2.1, fun h => absurd h this.2.2.1⟩
    | span hh => have := tafStart_mem hh; simpa using this.2.1
  | cnl hh => have := tafStart_mem hh; simpa using this.2.1
  | @metar h e b hh hb =>
    have hm := metarStart_mem hh
    have hb1 : .amd ∉ e :: b := fun hx => by simpa [MetarBody] using hb _ hx
    have hb2 : .cnl ∉ e :: b := fun hx => by simpa [MetarBody] using hb _ hx
    refine ⟨fun hx => ?_, fun hx => ?_, fun _ => rfl⟩ <;>
      rcases List.mem_append.mp hx with hx | hx
    · exact absurd hx hm.1
    · exact absurd hx hb1
    · exact absurd hx hm.2.1
    · exact absurd hx hb2
  | @metarRemarks h b r hh hb hrm =>
    have hm := metarStart_mem hh
    have hb1 : .amd ∉ b := fun hx => by simpa [MetarBody] using hb _ hx
    have hb2 : .cnl ∉ b := fun hx => by simpa [MetarBody] using hb _ hx
    have hr1 : .amd ∉ r := fun hx => by simpa using hrm _ hx
    have hr2 : .cnl ∉ r := fun hx => by simpa using hrm _ hx
    simp [hm.1, hm.2.1, hb1, hb2, hr1, hr2]
  | @taf h e b hh hb =>
    have hm := tafStart_mem hh
    have hb1 : .maintenance ∉ e :: b := fun hx => by simpa [TafBody] using hb _ hx
    refine ⟨fun _ => rfl, fun _ => rfl, fun hx => ?_⟩
    rcases List.mem_append.mp hx with hx | hx
    · exact absurd hx hm.2.1
    · exact absurd hx hb1
  | @tafRemarks h b r hh hb hrm =>
    have hm := tafStart_mem hh
    have hb1 : .maintenance ∉ b := fun hx => by simpa [TafBody] using hb _ hx
    have hr1 : .maintenance ∉ r := fun hx => by simpa using hrm _ hx
    simp [hm.2.1, hb1, hr1]

/-- C11. In reports accepted without error AMD and CNL are found only in TAF, and the maintenance
indicator only in METAR. -/
theorem C11_restricted_keywords (report : Str) (limit : Nat) (r : ParseResult)
    (hr : Result report limit r) (he : r.reportMetadata.error = .NONE) :
    (∀ gi ∈ r.groups, gi.group = .keyword ⟨.AMD⟩ ∨ gi.group = .keyword ⟨.CNL⟩ →
      r.reportMetadata.type = .TAF) ∧
    (∀ gi ∈ r.groups, gi.group = .keyword ⟨.MAINTENANCE_INDICATOR⟩ →
      r.reportMetadata.type = .METAR) := by
  obtain ⟨h1, h2, h3⟩ := accepted_mem (C10_accepted report limit r hr he)
  constructor
  · intro gi hgi h
    have hm : elementOf gi.group ∈ elements r.groups := List.mem_map.mpr ⟨gi, hgi, rfl⟩
    rcases h with h | h
    · rw [h] at hm; exact h1 hm
    · rw [h] at hm; exact h2 hm
  · intro gi hgi h
    have hm : elementOf gi.group ∈ elements r.groups := List.mem_map.mpr ⟨gi, hgi, rfl⟩
    rw [h] at hm
    exact h3 hm

section
attribute [local instance] exactFloat

example : ∃ r : ParseResult, Result c!"TAF AMD ZZZZ 041115Z 0412/0512 CNL" 200 r ∧
    r.reportMetadata.error = .NONE ∧
    ((r.groups.map (·.group)).contains (.keyword ⟨.AMD⟩)) ∧
    ((r.groups.map (·.group)).contains (.keyword ⟨.CNL⟩)) := by
  refine ⟨{ reportMetadata := _, groups := _ }, rfl, ?_⟩
  decide +kernel

example : ∃ r : ParseResult, Result c!"METAR ZZZZ 041115Z CAVOK RMK AO2 $" 200 r ∧
    r.reportMetadata.error = .NONE ∧
    ((r.groups.map (·.group)).contains (.keyword ⟨.MAINTENANCE_INDICATOR⟩)) := by
  refine ⟨{ reportMetadata := _, groups := _ }, rfl, ?_⟩
  decide +kernel

end

/-! ### C12 -/

theorem nilReport_mem {t : ReportType} {l : List Element} (h : NilReport t l) :
    ∃ p, l = p ++ [.nil] ∧ .nil ∉ p ∧ .cnl ∉ p := by
  cases h with
  | @plain _ h hh => have := head_mem hh; exact ⟨h, rfl, this.2.2.2.1, this.2.1⟩
  | @time _ h hh => have := head_mem hh; exact ⟨h ++ [.time], by simp, by simp [this], by simp [this]⟩
  | @span h hh => have := tafStart_mem hh; exact ⟨h, rfl, this.2.2.1, this.1⟩

/-- Where NIL and CNL stand in accepted reports. -/
theorem accepted_terminal {t : ReportType} {l : List Element} (h : Accepted t l) :
    (.nil ∉ l ∧ .cnl ∉ l) ∨ ∃ p x, l = p ++ [x] ∧ (x = .nil ∨ x = .cnl) ∧ .nil ∉ p ∧ .cnl ∉ p ∧
      (x = .nil → NilReport t l) ∧ (x = .cnl → TafStart p) := by
  cases h with
  | nil hn =>
    obtain ⟨p, rfl, h1, h2⟩ := nilReport_mem hn
    exact Or.inr ⟨p, .nil, rfl, Or.inl rfl, h1, h2, fun _ => hn, by simp⟩
  | @cnl h hh =>
    have := tafStart_mem hh
    exact Or.inr ⟨h, .cnl, rfl, Or.inr rfl, this.2.2.1, this.1, by simp, fun _ => hh⟩
  | @metar h e b hh hb =>
    have hm := metarStart_mem hh
    have hb1 : .nil ∉ e :: b := fun hx => by simpa [MetarBody] using hb _ hx
    have hb2 : .cnl ∉ e :: b := fun hx => by simpa [MetarBody] using hb _ hx
    left
    simp only [List.mem_append, not_or]
    exact ⟨⟨hm.2.2.2.1, hb1⟩, hm.2.1, hb2⟩
  | @metarRemarks h b r hh hb hrm =>
    have hm := metarStart_mem hh
    have hb1 : .nil ∉ b := fun hx => by simpa [MetarBody] using hb _ hx
    have hb2 : .cnl ∉ b := fun hx => by simpa [MetarBody] using hb _ hx
    have hr1 : .nil ∉ r := fun hx => by simpa using hrm _ hx
    have hr2 : .cnl ∉ r := fun hx => by simpa using hrm _ hx
    simp [hm, hb1, hb2, hr1, hr2]
  | @taf h e b hh hb =>
    have hm := tafStart_mem hh
    have hb1 : .nil ∉ e :: b := fun hx => by simpa [TafBody] using hb _ hx
    have hb2 : .cnl ∉ e :: b := fun hx => by simpa [TafBody] using hb _ hx
    left
    simp only [List.mem_append, not_or]
    exact ⟨⟨hm.2.2.1, hb1⟩, hm.1, hb2⟩
  | @tafRemarks h b r hh hb hrm =>
    have hm := tafStart_mem hh
    have hb1 : .nil ∉ b := fun hx => by simpa [TafBody] using hb _ hx
    have hb2 : .cnl ∉ b := fun hx => by simpa [TafBody] using hb _ hx
    have hr1 : .nil ∉ r := fun hx => by simpa using hrm _ hx
    have hr2 : .cnl ∉ r := fun hx => by simpa using hrm _ hx
    simp [hm, hb1, hb2, hr1, hr2]

/-- C12. In a report accepted without error a NIL or CNL group is the last group of the result. -/
theorem C12_terminal (report : Str) (limit : Nat) (r : ParseResult)
    (hr : Result report limit r) (he : r.reportMetadata.error = .NONE) (pre post : List GroupInfo)
    (gi : GroupInfo) (hg : r.groups = pre ++ gi :: post)
    (hk : gi.group = .keyword ⟨.NIL⟩ ∨ gi.group = .keyword ⟨.CNL⟩) : post = [] := by
  have hx : elementOf gi.group = .nil ∨ elementOf gi.group = .cnl := by
    rcases hk with h | h
    · left; rw [h]; rfl
    · right; rw [h]; rfl
  have hl : elements r.groups = elements pre ++ elementOf gi.group :: elements post := by
    simp [elements, hg]
  rcases accepted_terminal (C10_accepted report limit r hr he) with ⟨h1, h2⟩ | ⟨p, x, h1, h2, h3, h4, -⟩
  · rw [hl] at h1 h2
    rcases hx with hx | hx
    · exact absurd (by simp [hx]) h1
    · exact absurd (by simp [hx]) h2
  · cases post using List.reverseRecOn with
    | nil => rfl
    | append_singleton post y =>
      have : elements pre ++ elementOf gi.group :: elements post = p := by
        have h5 : (elements pre ++ elementOf gi.group :: elements post) ++ [elementOf y.group] =
            p ++ [x] := by
          rw [← h1, hl]; simp [elements]
        exact (List.append_inj' h5 rfl).1
      rcases hx with hx | hx
      · exact absurd (by rw [← this]; simp [hx]) h3
      · exact absurd (by rw [← this]; simp [hx]) h4

/-- C12. If the groups of a complete NIL report or of a cancelled TAF are followed by another group
then the error is the one which says so, or the limit of groups is reached. -/
theorem C12_after (report : Str) (limit : Nat) (r : ParseResult) (hr : Result report limit r)
    (pre : List Element) (x : Element) (post : List Element)
    (hl : elements r.groups = pre ++ x :: post) :
    ((∃ t, NilReport t pre) → r.reportMetadata.error = .UNEXPECTED_GROUP_AFTER_NIL ∨
      r.reportMetadata.error = .REPORT_TOO_LARGE) ∧
    ((∃ h, TafStart h ∧ pre = h ++ [.cnl]) →
      r.reportMetadata.error = .UNEXPECTED_GROUP_AFTER_CNL ∨
      r.reportMetadata.error = .REPORT_TOO_LARGE) := by
  obtain ⟨v, gs, hf⟩ := result_facts hr
  obtain ⟨he, ht⟩ := error_eq hf
  have main : ∀ e, Reason e pre x → e ≠ .NONE → r.reportMetadata.error = e ∨
      r.reportMetadata.error = .REPORT_TOO_LARGE := by
    intro e hre hne
    by_cases hlim : v.status.reportError = .REPORT_TOO_LARGE
    · right
      rw [he]
      rcases (finalTransition_error hf.status).1 with h1 | h1
      · rw [h1, hlim]
      · rw [hlim] at h1; simp at h1
    · left
      have hv := hf.verdict hlim
      have hre := Grammar.reason_error hre
      rw [hl, show pre ++ x :: post = (pre ++ [x]) ++ post by simp, Grammar.verdict_app] at hv
      have herr : (Grammar.verdict (pre ++ [x])).state = .ERROR :=
        (Grammar.statusOk_verdict _).1.mpr (by rw [hre]; exact hne)
      rw [Grammar.foldl_delta_error herr] at hv
      rw [he, ← hv]
      rw [← hre]
      generalize Grammar.verdict (pre ++ [x]) = st at herr
      obtain ⟨s, t, e⟩ := st
      simp only at herr
      subst herr
      rfl
  exact ⟨fun h => main _ h (by simp), fun h => main _ h (by simp)⟩

theorem stutter_head {a r : List (Element × ReportPart)} {e : Element} {p : ReportPart}
    (h : Stutter a ((e, p) :: r)) (hne : e ≠ .other) : a = (e, p) :: r := by
  cases h with
  | same => rfl
  | double => exact absurd rfl hne
  | merge => exact absurd rfl hne

/-- C12 for text: a complete NIL report or a cancelled TAF followed by a further group fails. -/
theorem C12_after_text (s s' : Str) (limit : Nat) (ts us : List Str) (u : Str) (r r' : ParseResult)
    (hs : Groups s ts) (hs' : Groups s' (ts ++ u :: us)) (hr : Result s limit r)
    (hr' : Result s' limit r') (he : r.reportMetadata.error = .NONE) (pre : List GroupInfo)
    (gi : GroupInfo) (hg : r.groups = pre ++ [gi]) :
    (gi.group = .keyword ⟨.NIL⟩ → r'.reportMetadata.error = .UNEXPECTED_GROUP_AFTER_NIL ∨
      r'.reportMetadata.error = .REPORT_TOO_LARGE) ∧
    (gi.group = .keyword ⟨.CNL⟩ → r'.reportMetadata.error = .UNEXPECTED_GROUP_AFTER_CNL ∨
      r'.reportMetadata.error = .REPORT_TOO_LARGE) := by
  have hacc := C10_accepted s limit r hr he
  obtain ⟨v, done, h1, h2, h3, h4⟩ := exists_run limit s
  obtain ⟨gs, h5, h6, h7⟩ := finish_spec h2
  unfold Result at hr hr'
  rw [parse_eq] at hr hr'
  rw [tokens_of_groups hs] at h1 hr h3 h4
  rw [tokens_of_groups hs', foldTokens_append, h1] at hr'
  rw [h1] at hr
  simp only at hr hr'
  rw [h5] at hr
  injection hr with hr
  subst hr
  simp only [finalMd] at he
  have hn : v.status.reportError = .NONE := by
    rcases (finalTransition_error h2.statusOk).1 with h | h
    · rw [← h]; exact he
    · exact h.1
  have herr : v.status.isError = false := by simp [Status.isError, hn]
  have hdone : done = ts := by simpa [herr] using h4
  subst hdone
  have hst := h6.syntax h2.inv h2.entriesOk h2.headText
  simp only at hg
  have hgs : gs = gi :: pre.reverse := by
    have := congrArg List.reverse hg
    simpa using this
  have hv : Grammar.verdict (elements gs.reverse) = v.status := by
    rw [elements_reverse, els_eq, verdict_stutter hst.2, ← els_eq]
    exact h2.verdict (by rw [hn]; simp)
  -- the last group is a keyword before the end of the report, too
  have hlast : ∀ k, gi.group = .keyword ⟨k⟩ → elementOf gi.group ≠ .other →
      ∃ g rest, v.groups = g :: rest ∧ ∃ k', g.group = .keyword ⟨k'⟩ := by
    intro k hk hne
    have hkeq : kinds v.groups = kinds gs := by
      have h8 := hst.2
      rw [hgs] at h8 ⊢
      generalize kinds v.groups = a at h8
      exact stutter_head (by simpa [kinds] using h8) hne
    rw [hgs] at hkeq
    cases hvg : v.groups with
    | nil => rw [hvg] at hkeq; simp [kinds] at hkeq
    | cons g rest =>
      refine ⟨g, rest, rfl, ?_⟩
      rw [hvg] at hkeq
      simp only [kinds, List.map_cons, List.cons.injEq, Prod.mk.injEq] at hkeq
      have h9 := hkeq.1.1
      rw [hk] at h9 hne
      revert h9 hne
      cases hgg : g.group with
      | keyword k' => intro _ _; exact ⟨k'.t, rfl⟩
      | _ => cases k <;> simp [elementOf] <;> split <;> simp
  have main : ∀ st e, v.status.state = st → (∀ x, v.status.transition x = ⟨.ERROR, v.status.reportType, e⟩) →
      st ≠ .TIME_SPAN → (∃ g rest, v.groups = g :: rest ∧ ∃ k', g.group = .keyword ⟨k'⟩) → e ≠ .NONE →
      e ≠ .EMPTY_REPORT → e ≠ .UNEXPECTED_REPORT_END →
      r'.reportMetadata.error = e ∨ r'.reportMetadata.error = .REPORT_TOO_LARGE := by
    intro st e hste htr hnts hk hne hne1 hne2
    have htok : Tok u := by
      refine tok_of_mem (s := s') ?_
      rw [tokens_of_groups hs']
      simp
    obtain ⟨v1, hv1, hstep, hi1⟩ := stepTok_spec (tok := u) (limit := limit) h2.inv herr
    have hrun1 : Run limit (done ++ [u]) v1 := .step h2 herr htok hv1 hstep
    have hv1err : v1.status.reportError = e ∨ v1.status.reportError = .REPORT_TOO_LARGE := by
      obtain ⟨g, rest, hvg, k', hk'⟩ := hk
      cases hstep with
      | absorbed ha =>
        rw [hvg] at ha
        cases ha with
        | appended hf ha => rw [hk'] at ha; have := (keyword_append ha).2; simp at this
        | reAppended hf ha => rw [hk'] at ha; have := (keyword_append ha).2; simp at this
      | parsed ha hp =>
        simp only [htr, limitStatus]
        split
        · right; rfl
        · left; rfl
      | reparsed ha h8 => rw [hste] at h8; exact absurd h8 hnts
    have hv1e : v1.status.isError = true := by
      rw [isError_eq]
      rcases hv1err with h | h <;> rw [h] <;> first | exact hne | simp
    simp only [foldTokens, herr, hv1] at hr'
    rw [foldTokens_error hv1e] at hr'
    obtain ⟨gs', h5', h6', h7'⟩ := finish_spec hrun1
    simp only [Bool.false_eq_true, if_false] at hr'
    rw [h5'] at hr'
    injection hr' with hr'
    subst hr'
    simp only [finalMd]
    rcases (finalTransition_error hrun1.statusOk).1 with h | h
    · rw [h]; exact hv1err
    · rw [isError_eq] at hv1e
      exact absurd h.1 hv1e
  have hterm := accepted_terminal hacc
  have hel : elements gs.reverse = elements pre ++ [elementOf gi.group] := by
    rw [hg]; simp [elements]
  simp only [hel] at hterm hv
  constructor
  · intro hk
    have hx : elementOf gi.group = .nil := by rw [hk]; rfl
    rw [hx] at hterm hv
    rcases hterm with ⟨h8, -⟩ | ⟨p, x, h8, -, -, -, h9, -⟩
    · exact absurd (by simp) h8
    · obtain ⟨rfl, h10⟩ := List.append_inj' h8 rfl
      simp only [List.cons.injEq, and_true] at h10
      have := Grammar.verdict_nilReport (h9 h10.symm)
      rw [hv] at this
      refine main .NIL _ (by rw [this]) (fun x => ?_) (by simp) (hlast _ hk (by rw [hx]; simp))
        (by simp) (by simp) (by simp)
      rw [this]
      rfl
  · intro hk
    have hx : elementOf gi.group = .cnl := by rw [hk]; rfl
    rw [hx] at hterm hv
    rcases hterm with ⟨-, h8⟩ | ⟨p, x, h8, -, -, -, -, h9⟩
    · exact absurd (by simp) h8
    · obtain ⟨rfl, h10⟩ := List.append_inj' h8 rfl
      simp only [List.cons.injEq, and_true] at h10
      have := Grammar.verdict_tafStart (h9 h10.symm)
      rw [Grammar.verdict_append, this] at hv
      have hv : v.status = ⟨.CNL, .TAF, .NONE⟩ := by rw [← hv]; rfl
      refine main .CNL _ (by rw [hv]) (fun x => ?_) (by simp) (hlast _ hk (by rw [hx]; simp))
        (by simp) (by simp) (by simp)
      rw [hv]
      rfl

section
attribute [local instance] exactFloat

example : ∃ r : ParseResult, Result c!"METAR ZZZZ 041115Z NIL" 200 r ∧
    r.reportMetadata.error = .NONE ∧ (r.groups.map (·.group)).getLast? = some (.keyword ⟨.NIL⟩) := by
  refine ⟨{ reportMetadata := _, groups := _ }, rfl, ?_⟩
  decide +kernel

example : ∃ r : ParseResult, Result c!"TAF ZZZZ 041115Z 0412/0512 CNL" 200 r ∧
    r.reportMetadata.error = .NONE ∧ (r.groups.map (·.group)).getLast? = some (.keyword ⟨.CNL⟩) := by
  refine ⟨{ reportMetadata := _, groups := _ }, rfl, ?_⟩
  decide +kernel

end

/-! ### C16 -/

/-- C16. The type of every report, accepted or not, by its first groups: METAR or SPECI; TAF; or,
after a location, the groups after the release time. -/
theorem C16_type_detection (report : Str) (limit : Nat) (r : ParseResult)
    (hr : Result report limit r) :
    r.reportMetadata.type =
      match elements r.groups with
      | .metar :: _ => .METAR
      | .speci :: _ => .METAR
      | .taf :: _ => .TAF
      | .location :: .time :: .span :: _ => .TAF
      | .location :: .time :: .nil :: _ => .UNKNOWN
      | .location :: .time :: _ :: _ => .METAR
      | _ => .UNKNOWN := by
  obtain ⟨v, gs, hf⟩ := result_facts hr
  rw [(error_eq hf).2, hf.type]
  generalize elements r.groups = l
  cases l with
  | nil => rfl
  | cons e m =>
    cases e with
    | metar => exact verdict_type_metar m
    | speci => exact verdict_type_speci m
    | taf => exact verdict_type_taf m
    | location =>
      rw [verdict_type_untyped]
      split <;> first | rfl | (split <;> simp_all)
    | _ => exact verdict_type_closed (l := [_]) (Or.inr rfl)

/-- C16. Nothing but the words METAR and SPECI, or TAF, stands for these types: the text of the first
group of a report decides on its type. -/
theorem C16_first_group (report : Str) (limit : Nat) (r : ParseResult) (hr : Result report limit r)
    (t : Str) (ts : List Str) (hg : Groups report (t :: ts)) :
    (t = c!"METAR" ∨ t = c!"SPECI" → r.reportMetadata.type = .METAR) ∧
    (t = c!"TAF" → r.reportMetadata.type = .TAF) := by
  obtain ⟨v, done, gs, h1, h2, h3, -, -, h6⟩ := parse_spec report limit
  unfold Result at hr
  rw [hr] at h6
  injection h6 with h6
  subst h6
  have ht : (finalMd v).type = v.status.reportType := (finalTransition_error h1.statusOk).2
  simp only [ht]
  rw [tokens_of_groups hg] at h2 h3
  have hd : ∃ rest, done = t :: rest := by
    cases done with
    | nil =>
      rcases h3 with h3 | h3
      · generalize hl : ([] : List Str) = l at h1
        cases h1 with
        | start => simp [Status.isError] at h3
        | step => simp at hl
      · simp at h3
    | cons a rest => exact ⟨rest, by rw [(List.cons_prefix_cons.mp h2).1]⟩
  obtain ⟨rest, hd⟩ := hd
  have key : ∀ k, KeywordGroup.parse t .HEADER = some ⟨k⟩ →
      ∀ md, GroupParser.parse t .HEADER md = .ok (.keyword ⟨k⟩) := by
    intro k hk md
    obtain ⟨g, hg, -⟩ := GroupParser.parse_ok t .HEADER md
    rw [hg, parse_keyword (keyword_parse_iff.mp hk) hg]
  rw [h1.type]
  refine ⟨?_, ?_⟩
  · rintro (rfl | rfl)
    · obtain ⟨l, hl⟩ := h1.first _ _ hd (.keyword ⟨.METAR⟩) (key _ rfl) (by simp [elementOf])
      rw [hl]; exact verdict_type_metar l
    · obtain ⟨l, hl⟩ := h1.first _ _ hd (.keyword ⟨.SPECI⟩) (key _ rfl) (by simp [elementOf])
      rw [hl]; exact verdict_type_speci l
  · rintro rfl
    obtain ⟨l, hl⟩ := h1.first _ _ hd (.keyword ⟨.TAF⟩) (key _ rfl) (by simp [elementOf])
    rw [hl]; exact verdict_type_taf l

section
attribute [local instance] exactFloat

example : Groups c!"SPECI ZZZZ" [c!"SPECI", c!"ZZZZ"] := by
  have h : tokens c!"SPECI ZZZZ" = [c!"SPECI", c!"ZZZZ"] := by decide +kernel
  rw [← h]; exact groups_tokens _

example : ∃ r : ParseResult, Result c!"ZZZZ 041115Z 0412/0512 CAVOK" 200 r ∧
    elements r.groups = [.location, .time, .span, .other] := by
  refine ⟨{ reportMetadata := _, groups := _ }, rfl, ?_⟩
  decide +kernel

end

/-! ### C19 -/

/-- C19. The group recognised in a text is the first alternative of `Group`, in the order of
declaration, that recognises the text, and it is an unknown group exactly if none does. -/
theorem C19_priority (s : Str) (p : ReportPart) (md : ReportMetadata) :
    ∃ g, GroupParser.parse s p md = .ok g ∧
      (∀ i, i < g.index → recognise i s p md = .ok none) ∧
      (g.index < 21 → recognise g.index s p md = .ok (some g)) ∧
      (g.index = 21 ↔ ∀ i < 21, recognise i s p md = .ok none) ∧
      (g.index = 21 → g = .unknown {}) := by
  obtain ⟨g, hg, -⟩ := GroupParser.parse_ok s p md
  obtain ⟨h1, h2⟩ := GroupParser.parse_first hg
  have hlt : g.index < 21 → recognise g.index s p md = .ok (some g) := by
    intro h
    rcases h2 with h2 | h2
    · exact h2
    · subst h2; simp [Group.index] at h
  refine ⟨g, hg, h1, hlt, ⟨fun h i hi => h1 i (by omega), fun h => ?_⟩, fun h => ?_⟩
  · by_contra hne
    have hle := Group.index_le g
    have := h g.index (by omega)
    rw [hlt (by omega)] at this
    simp at this
  · rcases h2 with h2 | h2
    · rw [h] at h2; simp [recognise] at h2
    · exact h2

/-- The order matters: this text is recognised both as cloud and as phenomenon in vicinity. -/
example (md : ReportMetadata) :
    (recognise 6 c!"FG" .RMK md).toOption.join.isSome = true ∧
    (recognise 19 c!"FG" .RMK md).toOption.join.isSome = true ∧
    (GroupParser.parse c!"FG" .RMK md).toOption.map Group.index = some 6 := by
  refine ⟨?_, ?_, ?_⟩ <;> kernel_rfl

/-! ### C20 -/

/-- C20. No group other than an unknown group absorbs a keyword as its continuation, whatever its
state. -/
theorem C20_not_absorbed (g g' : Group) (hg : g.index < 21) (s : Str) (q p : ReportPart)
    (k : KeywordType) (hk : IsKeyword q s k) (md : ReportMetadata) :
    g.append s p md ≠ .ok (g', .APPENDED) := by
  intro h
  refine Group.append_inert ?_ (isKeyword_inert hk) p md h rfl
  cases g <;> first | rfl | (simp [Group.index] at hg)

/-- C20. In every result a word which is a keyword for the part of the report is a keyword group of
its own. -/
theorem C20_own_group (report : Str) (limit : Nat) (r : ParseResult) (hr : Result report limit r)
    (gi : GroupInfo) (hgi : gi ∈ r.groups) (w : Str) (hw : w ∈ words gi.rawString)
    (k : KeywordType) (hk : IsKeyword gi.reportPart w k) :
    gi.group = .keyword ⟨k⟩ ∧ gi.rawString = w :=
  result_keys hr gi hgi w hw k hk

/-- C20. In every result keywords of whatever part are found among the further words of a group only
in unknown groups. -/
theorem C20_first_word (report : Str) (limit : Nat) (r : ParseResult) (hr : Result report limit r)
    (gi : GroupInfo) (hgi : gi ∈ r.groups) (hf : gi.group.index < 21) (w : Str)
    (hw : w ∈ (words gi.rawString).tail) (q : ReportPart) (k : KeywordType) :
    ¬ IsKeyword q w k := by
  intro hk
  obtain ⟨v, done, gs, h1, h2, h3, h4, -, h6⟩ := parse_spec report limit
  unfold Result at hr
  rw [hr] at h6
  injection h6 with h6
  subst h6
  simp only [List.mem_reverse] at hgi
  refine h4.tails (Or.inr rfl) h1.tails gi hgi ?_ w hw (isKeyword_inert hk)
  cases hg : gi.group <;> first | rfl | (rw [hg] at hf; simp [Group.index] at hf)

section
attribute [local instance] exactFloat

example : ∃ r : ParseResult, Result c!"METAR ZZZZ 041115Z WIND NIL" 200 r ∧
    r.groups.map (·.group.index) = [0, 1, 2, 21, 0] := by
  refine ⟨{ reportMetadata := _, groups := _ }, rfl, ?_⟩
  decide +kernel

example : IsKeyword .METAR c!"NIL" .NIL := ⟨_, by simp [keywords]; rfl, by simp⟩

/-- Outside of their part of the report keywords are no keywords. -/
example : ∃ r : ParseResult, Result c!"METAR ZZZZ 041115Z CAVOK RMK XX NIL" 200 r ∧
    r.groups.map (·.rawString) = [c!"METAR", c!"ZZZZ", c!"041115Z", c!"CAVOK", c!"RMK", c!"XX NIL"] := by
  refine ⟨{ reportMetadata := _, groups := _ }, rfl, ?_⟩
  decide +kernel

end

end Metaf.Props
