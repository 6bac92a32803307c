import Verif.Props.WithRemarks

/-!
C145: what is read after the header of a report depends on the header only by the type of the report and, in the
remarks, by the hour.
-/

set_option linter.unusedSectionVars false

namespace Metaf.Props

open Metaf Metaf.Spec

variable [FloatIeee]

/-! ### What is read after the header -/

/-- What is read of the words after the header of a report if `k` more words are allowed. -/
def BodyOutcome (ty : ReportType) (now : Option Nat) (ws : List Str) (k : Nat) (gs : List GroupInfo)
    (e : ReportError) : Prop :=
  (∃ n, BodyMeaning ty now ws n gs e ∧ n < k) ∨
  ∃ us rest e', ws = us ++ rest ∧ BodyMeaning ty now us k gs e' ∧ e = .REPORT_TOO_LARGE

theorem bodyOutcome_exists {ty : ReportType} (hty : ty = .METAR ∨ ty = .TAF) (now : Option Nat) (ws : List Str)
    (k : Nat) : ∃ gs e, BodyOutcome ty now ws k gs e := by
  obtain ⟨n, gs, e, h⟩ := body_all hty now ws
  by_cases hn : n < k
  · exact ⟨gs, e, Or.inl ⟨n, h, hn⟩⟩
  · obtain ⟨us, rest, gs', e', hu, h'⟩ := body_prefix hty h (j := k) (by omega)
    exact ⟨gs', _, Or.inr ⟨us, rest, e', hu, h', rfl⟩⟩

theorem full_nonempty {ty : ReportType} {hs : Words} (h : FullHeader ty hs) : 1 ≤ hs.length := by
  cases h <;> simp

theorem outcome_typed {ty : ReportType} {hs : Words} {ws : List Str} {k : Nat} {gs : List GroupInfo} {e : ReportError}
    (hf : FullHeader ty hs) (h : BodyOutcome ty (headerHour hs) ws k gs e) :
    Outcome (wordsOf hs ++ ws) (hs.length + k) (headerEntries hs ++ gs) ty e := by
  have hl := full_nonempty hf
  rcases h with ⟨n, h, hn⟩ | ⟨us, rest, e', rfl, h, rfl⟩
  · exact .within (.typed hf h) (by omega)
  · exact .tooLarge (us := wordsOf hs ++ us) (rest := rest) (by simp) (.typed hf h) (by omega)

theorem body_word {ty : ReportType} {now : Option Nat} {n : Nat} {gs : List GroupInfo} {e : ReportError}
    (h : BodyMeaning ty now [] n gs e) : n = 0 := by
  generalize hv : ([] : List Str) = v at h
  cases h with
  | nothing => rfl
  | body hne => exact absurd hv.symm hne
  | _ => simp at hv

theorem outcome_untyped {hs : Words} {w : Str} {ws : List Str} {k : Nat} {gs : List GroupInfo} {e : ReportError}
    (ho : Opening .time .UNKNOWN hs) (hw : ¬ PeriodWord w) (hn : w ≠ c!"NIL") (hk : 1 ≤ k)
    (h : BodyOutcome .METAR (headerHour hs) (w :: ws) k gs e) :
    Outcome (wordsOf hs ++ w :: ws) (hs.length + 1 + k) (headerEntries hs ++ gs) .METAR e := by
  rcases h with ⟨n, h, hn'⟩ | ⟨us, rest, e', hu, h, rfl⟩
  · exact .within (.untyped ho hw hn h) (by omega)
  · cases us with
    | nil =>
      have := body_word h
      omega
    | cons u us =>
      rw [List.cons_append, List.cons.injEq] at hu
      obtain ⟨rfl, rfl⟩ := hu
      exact .tooLarge (us := wordsOf hs ++ w :: us) (rest := rest) (by simp) (.untyped ho hw hn h) (by omega)

/-! ### The hour -/

theorem remarks_hour {ty : ReportType} {now : Option Nat} {ws : List Str} {n : Nat} {gs : List GroupInfo}
    {e : ReportError} (h : RemarksMeaning ty now ws n gs e) (now' : Option Nat) :
    (∀ x ∈ gs, x.reportPart = .RMK) ∧
    ∃ gs', RemarksMeaning ty now' ws n gs' e ∧ ∀ x ∈ gs', x.reportPart = .RMK := by
  cases h with
  | @all ws items hd h =>
    obtain ⟨items', h'⟩ := C73_exists now' ws
    exact ⟨entries_part _ _, _, .all hd h', entries_part _ _⟩
  | @maintenance ws rest items ht hd h =>
    obtain ⟨items', h'⟩ := C73_exists now' (ws ++ [c!"$"])
    exact ⟨entries_part _ _, _, .maintenance ht hd h', entries_part _ _⟩

/-- The entries which do not belong to the remarks. -/
def beforeRemarks (gs : List GroupInfo) : List GroupInfo := gs.filter fun x => x.reportPart ≠ .RMK

theorem beforeRemarks_rmk {gs gs' : List GroupInfo} (as : List GroupInfo) (h : ∀ x ∈ gs, x.reportPart = .RMK)
    (h' : ∀ x ∈ gs', x.reportPart = .RMK) : beforeRemarks (as ++ gs) = beforeRemarks (as ++ gs') := by
  unfold beforeRemarks
  have e1 : gs.filter (fun x => x.reportPart ≠ .RMK) = [] := by simpa using h
  have e2 : gs'.filter (fun x => x.reportPart ≠ .RMK) = [] := by simpa using h'
  rw [List.filter_append, List.filter_append, e1, e2]

theorem body_hour {ty : ReportType} {now : Option Nat} {ws : List Str} {n : Nat} {gs : List GroupInfo} {e : ReportError}
    (h : BodyMeaning ty now ws n gs e) (now' : Option Nat) :
    ∃ gs', BodyMeaning ty now' ws n gs' e ∧ beforeRemarks gs' = beforeRemarks gs ∧
      (c!"RMK" ∉ ws → gs' = gs) := by
  cases h with
  | nothing => exact ⟨_, .nothing, rfl, fun _ => rfl⟩
  | nil h => exact ⟨_, .nil h, rfl, fun _ => rfl⟩
  | cnl h1 h2 => exact ⟨_, .cnl h1 h2, rfl, fun _ => rfl⟩
  | cnlMetar h => exact ⟨_, .cnlMetar h, rfl, fun _ => rfl⟩
  | body h1 h2 h3 => exact ⟨_, .body h1 h2 h3, rfl, fun _ => rfl⟩
  | ended h1 h2 h3 h4 => exact ⟨_, .ended h1 h2 h3 h4, rfl, fun _ => rfl⟩
  | maintenance h1 h2 h3 => exact ⟨_, .maintenance h1 h2 h3, rfl, fun _ => rfl⟩
  | @remarks ws rmk items n gs e h1 h2 h3 =>
    obtain ⟨hp, gs', h, hp'⟩ := remarks_hour h3 now'
    refine ⟨_, .remarks h1 h2 h, ?_, fun hm => absurd (by simp) hm⟩
    have : ∀ l : List GroupInfo, entries (bodyPart ty) items ++ ⟨.keyword ⟨.RMK⟩, bodyPart ty, c!"RMK"⟩ :: l =
        (entries (bodyPart ty) items ++ [⟨.keyword ⟨.RMK⟩, bodyPart ty, c!"RMK"⟩]) ++ l := by simp
    rw [this gs', this gs]
    exact beforeRemarks_rmk _ hp' hp

theorem bodyOutcome_hour {ty : ReportType} {now : Option Nat} {ws : List Str} {k : Nat} {gs : List GroupInfo}
    {e : ReportError} (h : BodyOutcome ty now ws k gs e) (now' : Option Nat) :
    ∃ gs', BodyOutcome ty now' ws k gs' e ∧ beforeRemarks gs' = beforeRemarks gs ∧ (c!"RMK" ∉ ws → gs' = gs) := by
  rcases h with ⟨n, h, hn⟩ | ⟨us, rest, e', rfl, h, rfl⟩
  · obtain ⟨gs', h', hb, hs⟩ := body_hour h now'
    exact ⟨gs', Or.inl ⟨n, h', hn⟩, hb, hs⟩
  · obtain ⟨gs', h', hb, hs⟩ := body_hour h now'
    exact ⟨gs', Or.inr ⟨us, rest, e', rfl, h', rfl⟩, hb, fun hm => hs fun hm' => hm (by simp [hm'])⟩

/-! ### Properties -/

theorem outcome_of_result {s : Str} {ws : List Str} {limit : Nat} {r : ParseResult} {gs : List GroupInfo}
    {ty : ReportType} {e : ReportError} (hg : Groups s ws) (hr : Result s limit r) (h : Outcome ws limit gs ty e) :
    r.groups = gs ∧ r.reportMetadata.type = ty ∧ r.reportMetadata.error = e :=
  C84_unique ((C84_outcome hg).mp ⟨r, hr, rfl, rfl, rfl⟩) h

/-- C145. If the complete header of a report is replaced by another one for a report of the same type, with the
same hour, then all groups after it are the same, and so are the type and the error. This is so for any words after
the header. The limit is counted from the end of the header. -/
theorem C145_header {s s' : Str} {ty : ReportType} {hs hs' : Words} {ws : List Str} {limit : Nat} {r : ParseResult}
    (hf : FullHeader ty hs) (hf' : FullHeader ty hs') (hh : headerHour hs = headerHour hs')
    (hg : Groups s (wordsOf hs ++ ws)) (hg' : Groups s' (wordsOf hs' ++ ws)) (hl : hs.length ≤ limit)
    (hr : Result s limit r) :
    ∃ r' gs, Result s' (limit - hs.length + hs'.length) r' ∧ r.groups = headerEntries hs ++ gs ∧
      r'.groups = headerEntries hs' ++ gs ∧ r'.reportMetadata.type = r.reportMetadata.type ∧
      r'.reportMetadata.error = r.reportMetadata.error := by
  obtain ⟨k, rfl⟩ : ∃ k, limit = hs.length + k := ⟨limit - hs.length, by omega⟩
  obtain ⟨gs, e, h⟩ := bodyOutcome_exists (full_type hf) (headerHour hs) ws k
  obtain ⟨h1, h2, h3⟩ := outcome_of_result hg hr (outcome_typed hf h)
  rw [hh] at h
  have h' := outcome_typed hf' h
  rw [show hs.length + k - hs.length + hs'.length = hs'.length + k by omega]
  exact ⟨_, gs, C85_result hg' h', h1, rfl, h2.symm, h3.symm⟩

/-- C145. With another hour too, all groups before the remarks are the same, and all groups if there are no
remarks. -/
theorem C145_hour {s s' : Str} {ty : ReportType} {hs hs' : Words} {ws : List Str} {limit : Nat} {r : ParseResult}
    (hf : FullHeader ty hs) (hf' : FullHeader ty hs')
    (hg : Groups s (wordsOf hs ++ ws)) (hg' : Groups s' (wordsOf hs' ++ ws)) (hl : hs.length ≤ limit)
    (hr : Result s limit r) :
    ∃ r' gs gs', Result s' (limit - hs.length + hs'.length) r' ∧ r.groups = headerEntries hs ++ gs ∧
      r'.groups = headerEntries hs' ++ gs' ∧
      gs'.filter (fun x => x.reportPart ≠ .RMK) = gs.filter (fun x => x.reportPart ≠ .RMK) ∧
      (c!"RMK" ∉ ws → gs' = gs) ∧ r'.reportMetadata.type = r.reportMetadata.type ∧
      r'.reportMetadata.error = r.reportMetadata.error := by
  obtain ⟨k, rfl⟩ : ∃ k, limit = hs.length + k := ⟨limit - hs.length, by omega⟩
  obtain ⟨gs, e, h⟩ := bodyOutcome_exists (full_type hf) (headerHour hs) ws k
  obtain ⟨h1, h2, h3⟩ := outcome_of_result hg hr (outcome_typed hf h)
  obtain ⟨gs', h', hb, hs''⟩ := bodyOutcome_hour h (headerHour hs')
  rw [show hs.length + k - hs.length + hs'.length = hs'.length + k by omega]
  exact ⟨_, gs, gs', C85_result hg' (outcome_typed hf' h'), h1, rfl, hb, hs'', h2.symm, h3.symm⟩

/-- C145. If the header of a METAR or SPECI is replaced by location and time without a report type, the report is
still a METAR with the same groups after the header, if these do not begin with a period or `NIL`. One more group is
counted. -/
theorem C145_untyped {s s' : Str} {hs hs' : Words} {w : Str} {ws : List Str} {limit : Nat} {r : ParseResult}
    (hf : FullHeader .METAR hs) (ho : Opening .time .UNKNOWN hs') (hh : headerHour hs = headerHour hs')
    (hw : ¬ PeriodWord w) (hn : w ≠ c!"NIL")
    (hg : Groups s (wordsOf hs ++ w :: ws)) (hg' : Groups s' (wordsOf hs' ++ w :: ws)) (hl : hs.length < limit)
    (hr : Result s limit r) :
    ∃ r' gs, Result s' (limit - hs.length + hs'.length + 1) r' ∧ r.groups = headerEntries hs ++ gs ∧
      r'.groups = headerEntries hs' ++ gs ∧ r'.reportMetadata.type = .METAR ∧ r.reportMetadata.type = .METAR ∧
      r'.reportMetadata.error = r.reportMetadata.error := by
  obtain ⟨k, rfl⟩ : ∃ k, limit = hs.length + k := ⟨limit - hs.length, by omega⟩
  obtain ⟨gs, e, h⟩ := bodyOutcome_exists (full_type hf) (headerHour hs) (w :: ws) k
  obtain ⟨h1, h2, h3⟩ := outcome_of_result hg hr (outcome_typed hf h)
  rw [hh] at h
  have h' := outcome_untyped ho hw hn (by omega) h
  rw [show hs.length + k - hs.length + hs'.length + 1 = hs'.length + 1 + k by omega]
  exact ⟨_, gs, C85_result hg' h', h1, rfl, rfl, h2, h3.symm⟩

/-! ### Cases -/

/-- `METAR ULLI 111030Z` and `SPECI COR EDDF 010515Z`, and without a type `ULLI 111030Z`. -/
example : FullHeader .METAR [(c!"METAR", .keyword ⟨.METAR⟩), (c!"ULLI", .location ⟨c!"ULLI"⟩),
      (c!"111030Z", .reportTime ⟨⟨some 11, 10, 30⟩⟩)] ∧
    FullHeader .METAR [(c!"SPECI", .keyword ⟨.SPECI⟩), (c!"COR", .keyword ⟨.COR⟩), (c!"EDDF", .location ⟨c!"EDDF"⟩),
      (c!"011015Z", .reportTime ⟨⟨some 1, 10, 15⟩⟩)] ∧
    Opening .time .UNKNOWN [(c!"ULLI", .location ⟨c!"ULLI"⟩), (c!"111030Z", .reportTime ⟨⟨some 11, 10, 30⟩⟩)] := by
  have l1 : LocationWord c!"ULLI" := ⟨_, _, _, _, rfl, by unfold Capital; decide, Or.inl (by unfold Capital; decide),
    Or.inl (by unfold Capital; decide), Or.inl (by unfold Capital; decide)⟩
  have l2 : LocationWord c!"EDDF" := ⟨_, _, _, _, rfl, by unfold Capital; decide, Or.inl (by unfold Capital; decide),
    Or.inl (by unfold Capital; decide), Or.inl (by unfold Capital; decide)⟩
  refine ⟨?_, ?_, ?_⟩
  · exact .metar (hs := [(c!"METAR", .keyword ⟨.METAR⟩), (c!"ULLI", .location ⟨c!"ULLI"⟩)]) (d := 11) (h := 10) (m := 30)
      (.location (Or.inr (Or.inl rfl)) .metar l1) (by decide) (by decide) (by decide)
  · exact .metar (hs := [(c!"SPECI", .keyword ⟨.SPECI⟩), (c!"COR", .keyword ⟨.COR⟩), (c!"EDDF", .location ⟨c!"EDDF"⟩)])
      (d := 1) (h := 10) (m := 15) (.location (Or.inr (Or.inr rfl)) (.cor .speci) l2) (by decide) (by decide) (by decide)
  · exact .time (hs := [(c!"ULLI", .location ⟨c!"ULLI"⟩)]) (d := 11) (h := 10) (m := 30)
      (.location (Or.inl rfl) .start l1) nofun (by decide) (by decide) (by decide)

/-- The headers have the same hour. -/
example : headerHour [(c!"METAR", .keyword ⟨.METAR⟩), (c!"ULLI", .location ⟨c!"ULLI"⟩),
      (c!"111030Z", .reportTime ⟨⟨some 11, 10, 30⟩⟩)] =
    headerHour [(c!"SPECI", .keyword ⟨.SPECI⟩), (c!"COR", .keyword ⟨.COR⟩), (c!"EDDF", .location ⟨c!"EDDF"⟩),
      (c!"011015Z", .reportTime ⟨⟨some 1, 10, 15⟩⟩)] := rfl

end Metaf.Props
