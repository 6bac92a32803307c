import Verif.Props.Limits

/-!
C111: remarks do not change the rest of the result.
-/

set_option linter.unusedSectionVars false

namespace Metaf.Props

open Metaf Metaf.Spec

variable [FloatIeee]

/-- The error of a report of the type `ty` with the remarks `rmk`, if there is none before them. -/
def remarksError (ty : ReportType) (rmk : List Str) : ReportError :=
  if ty = .TAF ∧ c!"$" ∈ rmk then .MAINTENANCE_INDICATOR_ALLOWED_IN_METAR_ONLY else .NONE

theorem entries_part (p : ReportPart) (items : List (Group × List Str)) :
    ∀ x ∈ entries p items, x.reportPart = p := by
  induction items with
  | nil => intro x hx; cases hx
  | cons a items ih =>
    obtain ⟨g, ws⟩ := a
    intro x hx
    unfold entries at hx
    split at hx
    · rename_i h
      rw [h] at ih
      rcases List.mem_cons.mp hx with rfl | hx
      · rfl
      · exact ih x (List.mem_cons_of_mem _ hx)
    · rcases List.mem_cons.mp hx with rfl | hx
      · rfl
      · exact ih x hx

theorem remarks_meaning (ty : ReportType) (now : Option Nat) (rmk : List Str) :
    ∃ n gs, RemarksMeaning ty now rmk n gs (remarksError ty rmk) ∧ n ≤ rmk.length ∧ ∀ x ∈ gs, x.reportPart = .RMK := by
  obtain ⟨n, gs, e, h⟩ := remarks_all ty now rmk
  cases h with
  | all hd h =>
    have he : remarksError ty rmk = .NONE := if_neg fun ⟨h1, h2⟩ => hd h1 h2
    rw [he]
    exact ⟨_, _, .all hd h, Nat.le_refl _, entries_part _ _⟩
  | maintenance ht hd h =>
    rw [remarksError, if_pos ⟨ht, by simp⟩]
    exact ⟨_, _, .maintenance ht hd h, by simp, entries_part _ _⟩

/-- What follows the header, with remarks after it. -/
theorem body_remarks {ty : ReportType} {now : Option Nat} {ws rmk : List Str} {n : Nat} {gs : List GroupInfo}
    (h : BodyMeaning ty now ws n gs .NONE) (hw : c!"RMK" ∉ ws) (hn : hasWord .NIL gs = false)
    (hc : hasWord .CNL gs = false) :
    ∃ n' rest, BodyMeaning ty now (ws ++ c!"RMK" :: rmk) n'
        (gs ++ ⟨.keyword ⟨.RMK⟩, bodyPart ty, c!"RMK"⟩ :: rest) (remarksError ty rmk) ∧
      n' ≤ ws.length + 1 + rmk.length ∧ ∀ x ∈ rest, x.reportPart = .RMK := by
  generalize hx : ReportError.NONE = e at h
  cases h with
  | nothing => cases hx
  | nil => simp [hasWord] at hn
  | cnl => simp [hasWord] at hc
  | cnlMetar => cases hx
  | body _ hs hd =>
    obtain ⟨n', rest, h1, h2, h3⟩ := remarks_meaning ty now rmk
    exact ⟨_, rest, .remarks hs hd h1, by omega, h3⟩
  | ended => cases hx
  | maintenance => cases hx
  | remarks => simp at hw

/-- C111. If a report without remarks is read without error and is neither missing nor cancelled, then the
same report with any remarks has the same result, followed by the group of `RMK` and groups of the remarks.
The type is the same, and the only error there can be is the maintenance indicator in a TAF. -/
theorem C111_remarks {s s' : Str} {ws rmk : List Str} {limit limit' : Nat} {r : ParseResult}
    (hs : Groups s ws) (hs' : Groups s' (ws ++ c!"RMK" :: rmk)) (hr : Result s limit r)
    (he : r.reportMetadata.error = .NONE) (hn : r.reportMetadata.isNil = false)
    (hc : r.reportMetadata.isCancelled = false) (hw : c!"RMK" ∉ ws)
    (hl : (ws ++ c!"RMK" :: rmk).length + 1 < limit') :
    ∃ r' rest, Result s' limit' r' ∧
      r'.groups = r.groups ++ ⟨.keyword ⟨.RMK⟩, bodyPart r.reportMetadata.type, c!"RMK"⟩ :: rest ∧
      (∀ x ∈ rest, x.reportPart = .RMK) ∧ r'.reportMetadata.type = r.reportMetadata.type ∧
      r'.reportMetadata.error = remarksError r.reportMetadata.type rmk := by
  have ho := outcome_of hs hr
  have hrec := C85_record hr
  rw [he] at ho hrec
  rw [hrec] at hn hc
  have hn : hasWord .NIL r.groups = false := hn
  have hc : hasWord .CNL r.groups = false := hc
  clear hrec he hr
  generalize r.groups = gs, r.reportMetadata.type = ty at ho hn hc ⊢
  simp only [List.length_append, List.length_cons] at hl
  suffices ∃ n rest, Meaning (ws ++ c!"RMK" :: rmk) n (gs ++ ⟨.keyword ⟨.RMK⟩, bodyPart ty, c!"RMK"⟩ :: rest) ty
      (remarksError ty rmk) ∧ n ≤ ws.length + 1 + rmk.length + 1 ∧ ∀ x ∈ rest, x.reportPart = .RMK by
    obtain ⟨n, rest, h1, h2, h3⟩ := this
    obtain ⟨r', a, b, c, d⟩ := (C84_outcome hs').mpr (Outcome.within h1 (limit := limit') (by omega))
    exact ⟨r', rest, a, b, h3, c, d⟩
  generalize hx : ReportError.NONE = e at ho
  cases ho with
  | tooLarge => cases hx
  | third => cases hx
  | within h _ =>
    cases h with
    | empty => cases hx
    | cut => cases hx
    | wrong _ h => subst hx; cases h
    | nil => simp [hasWord] at hn
    | @typed _ hs ws _ gs _ hf hb =>
      subst hx
      simp only [hasWord, List.any_append, Bool.or_eq_false_iff] at hn hc
      obtain ⟨n', rest, h1, h2, h3⟩ := body_remarks (rmk := rmk) hb
        (fun h => hw (List.mem_append_right _ h)) hn.2 hc.2
      have hm := Meaning.typed hf h1
      rw [← List.append_assoc, ← List.append_assoc] at hm
      refine ⟨_, rest, hm, ?_, h3⟩
      · simp only [wordsOf, List.length_append, List.length_map]
        omega
    | @untyped hs w ws _ gs _ hf hp hnil hb =>
      subst hx
      simp only [hasWord, List.any_append, Bool.or_eq_false_iff] at hn hc
      obtain ⟨n', rest, h1, h2, h3⟩ := body_remarks (rmk := rmk) hb
        (fun h => hw (List.mem_append_right _ h)) hn.2 hc.2
      have hm := Meaning.untyped hf hp hnil h1
      rw [← List.append_assoc] at hm
      rw [List.append_assoc]
      refine ⟨_, rest, hm, ?_, h3⟩
      · simp only [wordsOf, List.length_append, List.length_map, List.length_cons] at h2 ⊢
        omega

/-! ### Metadata -/

/-- A group of which the metadata keeps at most that it is there: the type of an automated station, that no
special reports are made, or that maintenance is needed. -/
def Aside : Group → Prop
  | .keyword k => k.t ∈ [KeywordType.AO1, .AO1A, .AO2, .AO2A, .NOSPECI, .MAINTENANCE_INDICATOR]
  | .location _ | .reportTime _ | .trend _ => False
  | .misc m => m.groupType ≠ .CORRECTED_WEATHER_OBSERVATION
  | _ => True

theorem remark_aside {now : Option Nat} {ws : List Str} {g : Group} (h : Remark now ws g) : Aside g := by
  cases h with
  | keyword h =>
    obtain ⟨ps, h1, h2⟩ := h
    simp only [keywords, List.mem_cons, Prod.mk.injEq, List.not_mem_nil, or_false] at h1
    rcases h1 with h1 | h1 | h1 | h1 | h1 | h1 | h1 | h1 | h1 | h1 | h1 | h1 | h1 | h1 | h1 | h1 <;>
      obtain ⟨-, rfl, rfl⟩ := h1 <;> revert h2 <;> simp only [Aside] <;> decide
  | fixed h =>
    simp only [fixedWords, List.mem_cons, Prod.mk.injEq, List.not_mem_nil, or_false] at h
    rcases h with h | h | h | h | h | h | h <;> obtain ⟨-, rfl⟩ := h <;> trivial
  | missing h =>
    simp only [missingWords, List.mem_cons, Prod.mk.injEq, List.not_mem_nil, or_false] at h
    rcases h with h | h | h | h | h | h <;> obtain ⟨-, rfl, -⟩ := h <;> trivial
  | missingSaid h =>
    simp only [missingWords, List.mem_cons, Prod.mk.injEq, List.not_mem_nil, or_false] at h
    rcases h with h | h | h | h | h | h <;> obtain ⟨-, -, rfl⟩ := h <;> trivial
  | misc h =>
    cases h with
    | colour _ h =>
      have : ∀ a ∈ colourCodes, a.2 ≠ .CORRECTED_WEATHER_OBSERVATION := by decide
      exact this _ h
    | _ => simp [Aside]
  | _ => trivial

theorem settled_aside {g : Group} (h : Aside g) : Aside (settled g) := by
  cases g <;> exact h

theorem said_aside {now : Option Nat} {x : GroupInfo} (h : Said now x) (hp : x.reportPart = .RMK) : Aside x.group := by
  cases h with
  | unknown => trivial
  | header => cases hp
  | afterNil => cases hp
  | body h => rcases h with rfl | rfl <;> cases hp
  | remark h => exact settled_aside (remark_aside h)
  | remnant => trivial

theorem lastSaid_append {α : Type} {f : GroupInfo → Option α} {gs more : List GroupInfo}
    (h : ∀ x ∈ more, f x = none) : lastSaid f (gs ++ more) = lastSaid f gs := by
  unfold lastSaid
  rw [List.reverse_append, List.findSome?_append]
  have : more.reverse.findSome? f = none := List.findSome?_eq_none_iff.mpr fun x hx => h x (List.mem_reverse.mp hx)
  rw [this]
  rfl

theorem firstSaid_append {α : Type} {f : GroupInfo → Option α} {gs more : List GroupInfo}
    (h : ∀ x ∈ more, f x = none) : firstSaid f (gs ++ more) = firstSaid f gs := by
  unfold firstSaid
  rw [List.findSome?_append, List.findSome?_eq_none_iff.mpr h, Option.or_none]

theorem hasWord_append {k : KeywordType} {gs more : List GroupInfo}
    (h : ∀ x ∈ more, x.group ≠ .keyword ⟨k⟩) : hasWord k (gs ++ more) = hasWord k gs := by
  unfold hasWord
  rw [List.any_append]
  have : (more.any fun x => decide (x.group = .keyword ⟨k⟩)) = false := by simpa using h
  rw [this, Bool.or_false]

theorem record_append {gs more : List GroupInfo} {ty : ReportType} {e e' : ReportError}
    (h : ∀ x ∈ more, Aside x.group ∨ x.group = .keyword ⟨.RMK⟩) :
    recordOf (gs ++ more) ty e' =
      { recordOf gs ty e with
        error := e'
        isNospeci := (recordOf (gs ++ more) ty e').isNospeci
        isAo1 := (recordOf (gs ++ more) ty e').isAo1
        isAo1a := (recordOf (gs ++ more) ty e').isAo1a
        isAo2 := (recordOf (gs ++ more) ty e').isAo2
        isAo2a := (recordOf (gs ++ more) ty e').isAo2a
        maintenanceIndicator := (recordOf (gs ++ more) ty e').maintenanceIndicator } := by
  have word : ∀ k : KeywordType, k ∉ [KeywordType.AO1, .AO1A, .AO2, .AO2A, .NOSPECI, .MAINTENANCE_INDICATOR] →
      k ≠ .RMK → hasWord k (gs ++ more) = hasWord k gs := by
    intro k hk hr
    refine hasWord_append fun x hx hg => ?_
    rcases h x hx with ha | ha
    · rw [hg] at ha
      exact hk ha
    · rw [hg] at ha
      injection ha with ha
      injection ha with ha
      exact hr ha
  have mark : ∀ x ∈ more, ¬ IsCorrectionMark x.group := by
    rintro x hx ⟨m, hg, hm⟩
    rcases h x hx with ha | ha
    · rw [hg] at ha
      exact ha hm
    · rw [hg] at ha
      cases ha
  have time : lastSaid (fun x => timeValue x.group) (gs ++ more) = lastSaid (fun x => timeValue x.group) gs := by
    refine lastSaid_append fun x hx => ?_
    rcases h x hx with ha | ha
    · cases hg : x.group <;> rw [hg] at ha <;> first | rfl | exact absurd ha id
    · simp only [ha]
      rfl
  have place : lastSaid (fun x => locationText x.group) (gs ++ more) = lastSaid (fun x => locationText x.group) gs := by
    refine lastSaid_append fun x hx => ?_
    rcases h x hx with ha | ha
    · cases hg : x.group <;> rw [hg] at ha <;> first | rfl | exact absurd ha id
    · simp only [ha]
      rfl
  have number : lastSaid correctionOf (gs ++ more) = lastSaid correctionOf gs :=
    lastSaid_append fun x hx => if_neg (mark x hx)
  have period : firstSaid periodOf (gs ++ more) = firstSaid periodOf gs := by
    refine firstSaid_append fun x hx => ?_
    unfold periodOf
    rcases h x hx with ha | ha
    · cases hg : x.group <;> rw [hg] at ha <;> first | rfl | exact absurd ha id
    · rw [ha]
  have marks : ((gs ++ more).any fun x => decide (IsCorrectionMark x.group)) =
      gs.any fun x => decide (IsCorrectionMark x.group) := by
    rw [List.any_append]
    have : (more.any fun x => decide (IsCorrectionMark x.group)) = false := by simpa using mark
    rw [this, Bool.or_false]
  simp only [recordOf, time, place, number, period, marks, word .SPECI (by decide) (by decide),
    word .AUTO (by decide) (by decide), word .NIL (by decide) (by decide), word .CNL (by decide) (by decide),
    word .AMD (by decide) (by decide), word .COR (by decide) (by decide)]

/-- C111. Of the metadata, remarks can only change whether there is an error, the kind of automated station,
whether no special reports are made and whether maintenance is needed. Nothing else changes. -/
theorem C111_metadata {s s' : Str} {ws rmk : List Str} {limit limit' : Nat} {r r' : ParseResult}
    (hs : Groups s ws) (hs' : Groups s' (ws ++ c!"RMK" :: rmk)) (hr : Result s limit r)
    (he : r.reportMetadata.error = .NONE) (hn : r.reportMetadata.isNil = false)
    (hc : r.reportMetadata.isCancelled = false) (hw : c!"RMK" ∉ ws)
    (hl : (ws ++ c!"RMK" :: rmk).length + 1 < limit') (hr' : Result s' limit' r') :
    r'.reportMetadata =
      { r.reportMetadata with
        error := remarksError r.reportMetadata.type rmk
        isNospeci := r'.reportMetadata.isNospeci
        isAo1 := r'.reportMetadata.isAo1
        isAo1a := r'.reportMetadata.isAo1a
        isAo2 := r'.reportMetadata.isAo2
        isAo2a := r'.reportMetadata.isAo2a
        maintenanceIndicator := r'.reportMetadata.maintenanceIndicator } := by
  obtain ⟨r'', rest, h1, h2, h3, h4, h5⟩ := C111_remarks hs hs' hr he hn hc hw hl
  obtain rfl := result_unique hr' h1 rfl
  have ha : ∀ x ∈ rest, Aside x.group := fun x hx =>
    said_aside (C75_said hr' x (by rw [h2]; simp [hx])) (h3 x hx)
  have hb := C85_record hr
  rw [he] at hb
  have hb' := C85_record hr'
  rw [h4, h5] at hb'
  rw [h2] at hb'
  have := record_append (gs := r.groups) (ty := r.reportMetadata.type) (e := .NONE)
    (e' := remarksError r.reportMetadata.type rmk)
    (more := ⟨.keyword ⟨.RMK⟩, bodyPart r.reportMetadata.type, c!"RMK"⟩ :: rest) (by
      intro x hx
      rcases List.mem_cons.mp hx with rfl | hx
      · exact Or.inr rfl
      · exact Or.inl (ha x hx))
  rw [← hb, ← hb'] at this
  exact this

section
attribute [local instance] exactFloat

/-- A METAR report read without error, and the same report with remarks. -/
example : ∃ r r', Result c!"METAR ULLI 112200Z 24005MPS NOSIG" 200 r ∧
    Result c!"METAR ULLI 112200Z 24005MPS NOSIG RMK AO2 SLP123 $" 200 r' ∧
    Groups c!"METAR ULLI 112200Z 24005MPS NOSIG" (tokens c!"METAR ULLI 112200Z 24005MPS NOSIG") ∧
    tokens c!"METAR ULLI 112200Z 24005MPS NOSIG RMK AO2 SLP123 $" =
      tokens c!"METAR ULLI 112200Z 24005MPS NOSIG" ++ c!"RMK" :: [c!"AO2", c!"SLP123", c!"$"] ∧
    r.reportMetadata.error = .NONE ∧ r.reportMetadata.isNil = false ∧ r.reportMetadata.isCancelled = false ∧
    c!"RMK" ∉ tokens c!"METAR ULLI 112200Z 24005MPS NOSIG" ∧ r'.groups.length = r.groups.length + 4 ∧
    r'.reportMetadata.error = .NONE ∧ r'.reportMetadata.isAo2 = true ∧
    r'.reportMetadata.maintenanceIndicator = true := by
  refine ⟨{ reportMetadata := _, groups := _ }, { reportMetadata := _, groups := _ }, rfl, rfl, groups_tokens _, ?_⟩
  decide +kernel

/-- A TAF report with the maintenance indicator in its remarks: the error is the one of C111. -/
example : ∃ r r', Result c!"TAF ULLI 112200Z 1200/1306 24005MPS" 200 r ∧
    Result c!"TAF ULLI 112200Z 1200/1306 24005MPS RMK NXT $" 200 r' ∧ r.reportMetadata.error = .NONE ∧
    r'.reportMetadata.error = .MAINTENANCE_INDICATOR_ALLOWED_IN_METAR_ONLY ∧
    remarksError r.reportMetadata.type [c!"NXT", c!"$"] = .MAINTENANCE_INDICATOR_ALLOWED_IN_METAR_ONLY := by
  refine ⟨{ reportMetadata := _, groups := _ }, { reportMetadata := _, groups := _ }, rfl, rfl, ?_⟩
  decide +kernel

end

end Metaf.Props
