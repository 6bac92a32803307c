import Verif.Proofs.Remarks
import Verif.Props.Text

/-!
C67: in the body of a report a group takes the next word only if that word is of the same kind.
C68: the groups of a report are those into which its words are divided from left to right.
-/

set_option linter.unusedSectionVars false

namespace Metaf.Props

open Spec

variable [FloatSem]

/-- C67. A group in the body of a METAR or TAF, made of any number of words, is neither extended nor
changed by the next word if that word by itself is not recognised as a group of the same kind. The
exceptions are the words after which the parser waits for more. -/
theorem C67_other_kind {p : ReportPart} (hp : p = .METAR ∨ p = .TAF) {md : ReportMetadata} {ws : List Str}
    {g : Group} (hr : Reads p md ws g) (hu : ¬ Unfinished ws) (w : Str)
    (hw : ∀ g', recognise g.index w p md ≠ .ok (some g')) : g.append w p md = .ok (g, .NOT_APPENDED) :=
  plain_reject hp (hr.plain hp) (fun h => hu (hr.unfinished hp h)) hw

/-- C67. An unfinished group which does not take the next word is unknown. -/
theorem C67_unfinished {p : ReportPart} (hp : p = .METAR ∨ p = .TAF) {md : ReportMetadata} {ws : List Str}
    {g g' : Group} (hr : Reads p md ws g) (w : Str)
    (ha : g.append w p md = .ok (g', .GROUP_INVALIDATED)) : Unfinished ws ∧ g' = g := by
  obtain ⟨h1, h2⟩ := plain_outcome (hr.plain hp) ha rfl
  exact ⟨hr.unfinished hp h2, h1⟩

/-- C67. A group in the body which does not take the next word is not changed by it, of whatever kind
that word is. -/
theorem C67_unchanged {p : ReportPart} (hp : p = .METAR ∨ p = .TAF) {md : ReportMetadata} {ws : List Str}
    {g g' : Group} (hr : Reads p md ws g) (w : Str) (ha : g.append w p md = .ok (g', .NOT_APPENDED)) : g' = g :=
  plain_unchanged (hr.plain hp) ha

theorem rmk_stops (p : ReportPart) : c!"RMK" ∈ stops p := by cases p <;> simp [stops]

/-- C68. Every sequence of words in the body of a report can be divided into groups. -/
theorem C68_cut_exists {p : ReportPart} (hp : p = .METAR ∨ p = .TAF) (md : ReportMetadata) {t : Str}
    (ht : t = [] ∨ t ∈ stops p) (ws : List Str) : ∃ items, Cut p md t ws items := cut_exists hp ht ws

theorem bodyType {ty : ReportType} {hs : List (Str × Group)} (h : Header ty hs) : ty = .METAR ∨ ty = .TAF := by
  cases h
  · exact Or.inl rfl
  · exact Or.inr rfl

theorem inBody_type {ty : ReportType} (hty : ty = .METAR ∨ ty = .TAF) {st : Status}
    (h : Parser.InBody (bodyPart ty) st) : st.reportType = ty := by
  obtain ⟨-, ⟨h1, h2, -⟩ | ⟨h1, h2, -⟩⟩ := h <;> rcases hty with rfl | rfl <;>
    first | exact h2 | cases h1

theorem header_known {ty : ReportType} {hs : List (Str × Group)} {v : Parser.Vars}
    (h : Parser.AfterHeader ty hs v) (es : List GroupInfo) :
    Parser.attach v.groups es = hs.map (fun x => ⟨x.2, .HEADER, x.1⟩) ++ es := by
  rw [Parser.attach_known (fun x hx => (h.closed x hx).1), h.groups]

theorem finish_of {report : Str} {limit : Nat} {v : Parser.Vars} {gs : List GroupInfo} {b : Bool}
    (hf : Parser.foldTokens limit (tokens report) {} = .ok v)
    (ha : Parser.appendToLastResultGroup v.groups [] v.status.getReportPart v.md = .ok (gs, b)) :
    Result report limit ⟨Parser.finalMd v, gs.reverse⟩ := by
  obtain ⟨v', done, h1, h2, -, -⟩ := Parser.exists_run limit report
  rw [hf] at h1
  obtain rfl := Except.ok.inj h1
  obtain ⟨gs2, b2, k1, k2, -⟩ := Parser.append_cases h2.inv [] v.status.getReportPart v.md
  rw [ha] at k1
  obtain ⟨rfl, rfl⟩ := Prod.mk.inj (Except.ok.inj k1)
  have hh := k2.headText h2.headText
  unfold Result
  rw [Parser.parse_eq, hf]
  cases hg : v.groups with
  | nil =>
    rw [hg] at ha
    cases ha
    simp [Parser.finish, hg, Parser.finalMd]
  | cons last rest =>
    have hne : gs ≠ [] := k2.ne_nil (by simp [hg])
    rw [hg] at ha
    simp only [Parser.finish, hg, ha]
    cases gs with
    | nil => exact absurd rfl hne
    | cons g0 gs0 =>
      have : g0.rawString.isEmpty = false := by
        have := hh g0 (by simp)
        cases hr : g0.rawString <;> simp_all
      simp [this, Parser.finalMd]

/-- C68. The result of parsing a report without remarks: the groups of the header, each in its own
word, and then the groups into which the words of the body are divided. -/
theorem C68_body {report : Str} {limit : Nat} {ty : ReportType} {hs : List (Str × Group)} {body : List Str}
    {items : List (Group × List Str)} (hh : Header ty hs)
    (ht : Groups report (hs.map Prod.fst ++ body)) (hne : body ≠ [])
    (hs' : ∀ w ∈ body, w ∉ stops (bodyPart ty)) (hl : hs.length + body.length < limit)
    (hc : Cut (bodyPart ty) {} [] body items) :
    ∃ r, Result report limit r ∧ r.reportMetadata.type = ty ∧ r.reportMetadata.error = .NONE ∧
      r.groups = hs.map (fun x => ⟨x.2, .HEADER, x.1⟩) ++ entries (bodyPart ty) items := by
  obtain ⟨v, h1, h2⟩ := Parser.fold_header (limit := limit) hh (by omega) body
  obtain ⟨v', k1, k2, k3, k4, -⟩ := Parser.fold_cut (limit := limit) hc h2.body (by rw [h2.count]; omega) hs'
    (h2.closed.append _ _ _)
  have hf : Parser.foldTokens limit (tokens report) {} = .ok v' := by
    rw [tokens_of_groups ht, h1, k1]
  refine ⟨_, finish_of hf (by rw [k2.part]; exact k4), ?_, ?_, ?_⟩
  · rw [← inBody_type (bodyType hh) k2]
    simp only [Parser.finalMd]
    rcases k3 hne with e | e <;> simp [Status.finalTransition, e]
  · rw [← k2.1]
    simp only [Parser.finalMd]
    rcases k3 hne with e | e <;> simp [Status.finalTransition, e]
  · rw [Parser.push_reverse, header_known h2]

/-- C68. The result of parsing a report with remarks: the groups of the header and of the body, which is
divided as if `RMK` followed, then `RMK` as a group of the body, and then only groups of the remarks. -/
theorem C68_remarks {report : Str} {limit : Nat} {ty : ReportType} {hs : List (Str × Group)} {body rmk : List Str}
    {items : List (Group × List Str)} (hh : Header ty hs)
    (ht : Groups report (hs.map Prod.fst ++ body ++ c!"RMK" :: rmk))
    (hs' : ∀ w ∈ body, w ∉ stops (bodyPart ty)) (hr : ty = .TAF → c!"$" ∉ rmk)
    (hl : hs.length + body.length + 1 + rmk.length < limit)
    (hc : Cut (bodyPart ty) {} c!"RMK" body items) :
    ∃ r rest, Result report limit r ∧ r.reportMetadata.type = ty ∧ r.reportMetadata.error = .NONE ∧
      r.groups = hs.map (fun x => ⟨x.2, .HEADER, x.1⟩) ++ entries (bodyPart ty) items ++
        ⟨.keyword ⟨.RMK⟩, bodyPart ty, c!"RMK"⟩ :: rest ∧ ∀ x ∈ rest, x.reportPart = .RMK := by
  obtain ⟨v, h1, h2⟩ := Parser.fold_header (limit := limit) hh (by omega) []
  rw [List.append_nil] at h1
  obtain ⟨v1, k1, k2, -, k4, k5⟩ := Parser.fold_cut (limit := limit) hc h2.body (by rw [h2.count]; omega) hs'
    (h2.closed.append _ _ _)
  rw [h2.count] at k5
  obtain ⟨v2, l1, l2, l3, l4⟩ := Parser.step_rmk (limit := limit) k2 (by omega) k4
  rw [inBody_type (bodyType hh) k2] at l2
  have hf2 : Parser.foldTokens limit (hs.map Prod.fst ++ body ++ [c!"RMK"]) {} = .ok v2 := by
    rw [Parser.foldTokens_append, Parser.foldTokens_append, h1]
    simp only [Parser.foldTokens, k1, k2.noError, l1, Bool.false_eq_true, if_false]
  have htok : ∀ t ∈ hs.map Prod.fst ++ body ++ c!"RMK" :: rmk, Parser.Tok t := by
    intro t h
    rw [← tokens_of_groups ht] at h
    exact Parser.tok_of_mem h
  have hi : Parser.GroupsInv v2.groups := by
    obtain ⟨v', done, e1, e2, -⟩ := Parser.Run.extend (limit := limit) (hs.map Prod.fst ++ body ++ [c!"RMK"]) [] {}
      (fun t h => htok t (by simp at h ⊢; tauto)) .start
    rw [hf2] at e1
    obtain rfl := Except.ok.inj e1
    exact e2.inv
  obtain ⟨v3, m1, m2, m3⟩ := Parser.fold_remarks (limit := limit) (ty := ty) (K := ⟨.keyword ⟨.RMK⟩, bodyPart ty, c!"RMK"⟩)
    (G := Parser.push (bodyPart ty) v.groups items) (Parser.closed_keyword _) rmk hi l2 ⟨[], l3, by simp⟩
    (by omega) hr
  have hf : Parser.foldTokens limit (tokens report) {} = .ok v3 := by
    rw [tokens_of_groups ht, show hs.map Prod.fst ++ body ++ c!"RMK" :: rmk =
      (hs.map Prod.fst ++ body ++ [c!"RMK"]) ++ rmk by simp, Parser.foldTokens_append, hf2]
    exact m1
  obtain ⟨v', done, e1, e2, -⟩ := Parser.exists_run limit report
  rw [hf] at e1
  obtain rfl := Except.ok.inj e1
  obtain ⟨gs, b, n1, n2, -⟩ := Parser.append_cases e2.inv [] v3.status.getReportPart v3.md
  rw [m2.part] at n2
  obtain ⟨l, rfl, hl'⟩ := m3.appended (Parser.closed_keyword _) n2
  refine ⟨_, l.reverse, finish_of hf n1, ?_, ?_, ?_, ?_⟩
  · rw [← m2.2.1]
    simp only [Parser.finalMd]
    obtain ⟨-, -, ⟨-, e⟩ | ⟨-, e⟩⟩ := m2 <;> simp [Status.finalTransition, e]
  · rw [← m2.1]
    simp only [Parser.finalMd]
    obtain ⟨-, -, ⟨-, e⟩ | ⟨-, e⟩⟩ := m2 <;> simp [Status.finalTransition, e]
  · simp only [List.reverse_append, List.reverse_cons, List.append_assoc, List.cons_append, List.nil_append]
    rw [Parser.push_reverse, header_known h2, List.append_assoc]
  · intro x hx
    exact hl' x (by simpa using hx)

end Metaf.Props

/-! ### Examples -/

namespace Metaf.Props

attribute [local instance] exactFloat

open Metaf.Spec

/-- A cloud group is not changed by a temperature. -/
example : ∃ g, Reads .METAR {} [c!"BKN020"] g ∧ ¬ Unfinished [c!"BKN020"] ∧
    (∀ g', recognise g.index c!"20/18" .METAR {} ≠ .ok (some g')) ∧
    g.append c!"20/18" .METAR {} = .ok (g, .NOT_APPENDED) := by
  have h : ∃ x, CloudGroup.parse c!"BKN020" .METAR = some x := ⟨_, rfl⟩
  obtain ⟨x, hx⟩ := h
  have hr : Reads .METAR {} [c!"BKN020"] (.cloud x) := .first (i := 6) (by simp [recognise, hx])
  have hu : ¬ Unfinished [c!"BKN020"] := nofun
  have hn : ∀ g', recognise (Group.cloud x).index c!"20/18" .METAR {} ≠ .ok (some g') := by
    have : recognise 6 c!"20/18" .METAR {} = .ok none := by decide +kernel
    intro g' h
    exact absurd (this.symm.trans h) nofun
  exact ⟨_, hr, hu, hn, C67_other_kind (Or.inl rfl) hr hu _ hn⟩

/-- A minimum temperature is not changed by another one. -/
example : ∃ g, Reads .TAF {} [c!"TN05/0906Z"] g ∧ g.append c!"TN07/1006Z" .TAF {} = .ok (g, .NOT_APPENDED) :=
  ⟨_, .first (i := 12) rfl, rfl⟩

/-- A whole number of miles which the next word does not continue. -/
example : ∃ g, Reads .METAR {} [c!"1"] g ∧ Unfinished [c!"1"] ∧
    g.append c!"BKN020" .METAR {} = .ok (g, .GROUP_INVALIDATED) :=
  ⟨_, .first (i := 5) rfl, .miles1 (by decide), rfl⟩

/-- The body of a METAR in which a group is made of two words and two unknown words meet. -/
example : ∃ items, Cut .METAR {} [] [c!"24005KT", c!"1", c!"1/2SM", c!"BKN020", c!"FOO", c!"1", c!"20/18"] items ∧
    items.map Prod.snd = [[c!"24005KT"], [c!"1", c!"1/2SM"], [c!"BKN020"], [c!"FOO"], [c!"1"], [c!"20/18"]] ∧
    (entries .METAR items).map GroupInfo.rawString =
      [c!"24005KT", c!"1 1/2SM", c!"BKN020", c!"FOO 1", c!"20/18"] := by
  refine ⟨_, .group (ws := [_]) (.first (i := 4) rfl) rfl
    (.group (ws := [_, _]) (.more (.first (i := 5) rfl) rfl) rfl
    (.group (ws := [_]) (.first (i := 6) rfl) rfl
    (.unknown ((C66_unknown _ _ _).mp (by decide +kernel))
    (.broken (ws := [_]) (.first (i := 5) rfl) rfl
    (.group (ws := [_]) (.first (i := 8) rfl) rfl .nil))))), rfl, ?_⟩
  decide +kernel

/-- The header of a METAR and of a TAF. -/
example : ∃ hs, Header .METAR hs ∧ hs.map Prod.fst = [c!"SPECI", c!"COR", c!"ZZZZ", c!"041115Z"] :=
  ⟨_, .metar (k := (c!"SPECI", .keyword ⟨.SPECI⟩)) (cor := [(c!"COR", .keyword ⟨.COR⟩)]) (l := c!"ZZZZ")
    (t := c!"041115Z") (by simp) (by simp) rfl rfl, rfl⟩

example : ∃ hs, Header .TAF hs ∧ hs.map Prod.fst = [c!"TAF", c!"AMD", c!"ZZZZ", c!"0412/0512"] :=
  ⟨_, .taf (cor := [(c!"AMD", .keyword ⟨.AMD⟩)]) (time := []) (l := c!"ZZZZ")
    (s := c!"0412/0512") (by simp) rfl (Or.inl rfl) rfl, rfl⟩

/-- A complete report. -/
example : ∃ r, Result c!"METAR ZZZZ 041115Z 24005KT 1 1/2SM FOO 1=" 100 r ∧ r.reportMetadata.type = .METAR ∧
    r.reportMetadata.error = .NONE ∧
    r.groups.map GroupInfo.rawString = [c!"METAR", c!"ZZZZ", c!"041115Z", c!"24005KT", c!"1 1/2SM", c!"FOO 1"] := by
  obtain ⟨r, h1, h2, h3, h4⟩ := C68_body (report := c!"METAR ZZZZ 041115Z 24005KT 1 1/2SM FOO 1=") (limit := 100)
    (body := [c!"24005KT", c!"1", c!"1/2SM", c!"FOO", c!"1"])
    (.metar (k := (c!"METAR", .keyword ⟨.METAR⟩)) (cor := []) (l := c!"ZZZZ") (t := c!"041115Z")
      (by simp) (by simp) rfl rfl)
    (by
      have := groups_tokens c!"METAR ZZZZ 041115Z 24005KT 1 1/2SM FOO 1="
      rwa [show tokens c!"METAR ZZZZ 041115Z 24005KT 1 1/2SM FOO 1=" =
        [c!"METAR", c!"ZZZZ", c!"041115Z", c!"24005KT", c!"1", c!"1/2SM", c!"FOO", c!"1"] by decide +kernel] at this)
    (by simp) (by decide) (by simp)
    (.group (ws := [_]) (.first (i := 4) rfl) rfl
    (.group (ws := [_, _]) (.more (.first (i := 5) rfl) rfl) rfl
    (.unknown ((C66_unknown _ _ _).mp (by decide +kernel))
    (.broken (ws := [_]) (.first (i := 5) rfl) rfl .nil))))
  refine ⟨r, h1, h2, h3, ?_⟩
  rw [h4]
  decide +kernel

/-- A TAF with remarks. -/
example : ∃ r rest, Result c!"TAF ZZZZ 0412/0512 24005KT RMK 12345" 100 r ∧ r.reportMetadata.type = .TAF ∧
    r.groups.map GroupInfo.rawString = [c!"TAF", c!"ZZZZ", c!"0412/0512", c!"24005KT", c!"RMK"] ++ rest := by
  obtain ⟨r, rest, h1, h2, h3, h4, -⟩ := C68_remarks (report := c!"TAF ZZZZ 0412/0512 24005KT RMK 12345") (limit := 100)
    (body := [c!"24005KT"]) (rmk := [c!"12345"])
    (.taf (cor := []) (time := []) (l := c!"ZZZZ") (s := c!"0412/0512") (by simp) rfl (Or.inl rfl) rfl)
    (by
      have := groups_tokens c!"TAF ZZZZ 0412/0512 24005KT RMK 12345"
      rwa [show tokens c!"TAF ZZZZ 0412/0512 24005KT RMK 12345" =
        [c!"TAF", c!"ZZZZ", c!"0412/0512", c!"24005KT", c!"RMK", c!"12345"] by decide +kernel] at this)
    (by decide) (by decide) (by simp) (.group (ws := [_]) (.first (i := 4) rfl) rfl .nil)
  refine ⟨r, rest.map GroupInfo.rawString, h1, h2, ?_⟩
  rw [h4, List.map_append, List.map_append, List.map_cons, List.append_assoc]
  rw [show ∀ (a b : List Str) (c : Str), a ++ (b ++ c :: rest.map GroupInfo.rawString) =
    (a ++ b ++ [c]) ++ rest.map GroupInfo.rawString by simp]
  congr 1

end Metaf.Props
