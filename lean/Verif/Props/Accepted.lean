import Verif.Props.Outcome

/-!
C86: exactly which texts are parsed without error.
-/

set_option linter.unusedSectionVars false

namespace Metaf.Props

open Metaf Metaf.Spec

variable [FloatIeee]

/-! ### Specification -/

/-- The words can be a part of the body of a report of type `ty`: none of them ends the body. -/
def BodyWords (ty : ReportType) (body : List Str) : Prop := ∀ w ∈ body, w ∉ stops (bodyPart ty)

/-- `Accepted ws ty n`: the words `ws` are a report of type `ty` without error, and `n` words are counted. -/
inductive Accepted : List Str → ReportType → Nat → Prop
  /-- A missing report, without its time or period. -/
  | missing {p ty hs} : Opening p ty hs → p = .location ∨ p = .time →
      Accepted (wordsOf hs ++ [c!"NIL"]) ty (hs.length + 1)
  /-- A missing report with complete header. -/
  | missingFull {ty hs} : FullHeader ty hs → Accepted (wordsOf hs ++ [c!"NIL"]) ty (hs.length + 1)
  /-- A cancelled forecast. -/
  | cancelled {hs} : FullHeader .TAF hs → Accepted (wordsOf hs ++ [c!"CNL"]) .TAF (hs.length + 1)
  /-- A report with a body. -/
  | report {ty hs body} : FullHeader ty hs → body ≠ [] → BodyWords ty body →
      Accepted (wordsOf hs ++ body) ty (hs.length + body.length)
  /-- A report with remarks. -/
  | remarks {ty hs body rmk} : FullHeader ty hs → BodyWords ty body → (ty = .TAF → c!"$" ∉ rmk) →
      Accepted (wordsOf hs ++ body ++ c!"RMK" :: rmk) ty (hs.length + body.length + 1 + rmk.length)
  /-- A weather report which does not say that it is one. The first word after the time is counted twice. -/
  | untyped {hs body} : Opening .time .UNKNOWN hs → body ≠ [] → (∀ w ∈ body.head?, ¬ PeriodWord w) →
      BodyWords .METAR body → Accepted (wordsOf hs ++ body) .METAR (hs.length + 1 + body.length)
  /-- The same with remarks. -/
  | untypedRemarks {hs body rmk} : Opening .time .UNKNOWN hs → (∀ w ∈ body.head?, ¬ PeriodWord w) →
      BodyWords .METAR body →
      Accepted (wordsOf hs ++ body ++ c!"RMK" :: rmk) .METAR (hs.length + 1 + body.length + 1 + rmk.length)

/-! ### Proof -/

theorem after_none {err : ReportError} (he : err ≠ .NONE) {ws : List Str} {n : Nat} {gs : List GroupInfo}
    (h : After err ws n gs .NONE) : ws = [] ∧ n = 0 := by
  generalize hx : ReportError.NONE = e at h
  cases h with
  | nothing => exact ⟨rfl, rfl⟩
  | word => exact absurd hx.symm he

theorem remarks_none {ty : ReportType} {now : Option Nat} {ws : List Str} {n : Nat} {gs : List GroupInfo}
    (h : RemarksMeaning ty now ws n gs .NONE) : (ty = .TAF → c!"$" ∉ ws) ∧ n = ws.length := by
  cases h with
  | all h _ => exact ⟨h, rfl⟩

/-- What follows a complete header in a report without error. -/
theorem body_none {ty : ReportType} {now : Option Nat} {ws : List Str} {n : Nat} {gs : List GroupInfo}
    (h : BodyMeaning ty now ws n gs .NONE) :
    (ws = [c!"NIL"] ∧ n = 1) ∨ (ty = .TAF ∧ ws = [c!"CNL"] ∧ n = 1) ∨
    (ws ≠ [] ∧ BodyWords ty ws ∧ n = ws.length) ∨
    ∃ body rmk, ws = body ++ c!"RMK" :: rmk ∧ BodyWords ty body ∧ (ty = .TAF → c!"$" ∉ rmk) ∧
      n = body.length + 1 + rmk.length := by
  generalize hx : ReportError.NONE = e at h
  cases h with
  | nothing | cnlMetar | ended | maintenance => cases hx
  | nil ha =>
    subst hx
    obtain ⟨rfl, rfl⟩ := after_none (by simp) ha
    exact Or.inl ⟨rfl, rfl⟩
  | cnl ht ha =>
    subst hx
    obtain ⟨rfl, rfl⟩ := after_none (by simp) ha
    exact Or.inr (Or.inl ⟨ht, rfl, rfl⟩)
  | body hne hs _ => exact Or.inr (Or.inr (Or.inl ⟨hne, hs, rfl⟩))
  | remarks hs _ hr =>
    subst hx
    obtain ⟨h1, rfl⟩ := remarks_none hr
    exact Or.inr (Or.inr (Or.inr ⟨_, _, rfl, hs, h1, rfl⟩))

theorem period_not_word {w : Str} (h : w = c!"RMK" ∨ w = c!"NIL") : ¬ PeriodWord w := by
  rintro ⟨d, h1, d', h', -, -, -, -, e⟩
  have := congrArg List.length e
  rcases h with rfl | rfl <;> simp [periodText, TrendWord.text, decimal] at this

theorem accepted_meaning {ws : List Str} {ty : ReportType} {n : Nat} :
    (∃ gs, Meaning ws n gs ty .NONE) ↔ Accepted ws ty n := by
  constructor
  · rintro ⟨gs, h⟩
    generalize hx : ReportError.NONE = e at h
    cases h with
    | empty | cut => cases hx
    | wrong _ hw _ => cases hw <;> cases hx
    | nil ho hp ha =>
      subst hx
      obtain ⟨rfl, rfl⟩ := after_none (by simp) ha
      exact .missing ho hp
    | @typed ty hs ws n gs e hf hb =>
      subst hx
      rcases body_none hb with ⟨rfl, rfl⟩ | ⟨rfl, rfl, rfl⟩ | ⟨h1, h2, rfl⟩ | ⟨body, rmk, rfl, h1, h2, rfl⟩
      · exact .missingFull hf
      · exact .cancelled hf
      · exact .report hf h1 h2
      · have := Accepted.remarks hf h1 h2
        rwa [List.append_assoc, show hs.length + body.length + 1 + rmk.length =
          hs.length + (body.length + 1 + rmk.length) by omega] at this
    | @untyped hs w ws n gs e ho hw hn hb =>
      subst hx
      rcases body_none hb with ⟨h1, rfl⟩ | ⟨h1, -⟩ | ⟨h1, h2, rfl⟩ | ⟨body, rmk, h, h1, h2, rfl⟩
      · exact absurd (List.cons.inj h1).1 hn
      · cases h1
      · exact .untyped ho h1 (by simpa using hw) h2
      · rw [h]
        have := Accepted.untypedRemarks (rmk := rmk) ho (body := body) (by
          intro x hx
          cases body with
          | nil => simp at hx
          | cons y body =>
            rw [List.cons_append] at h
            obtain ⟨rfl, -⟩ := List.cons.inj h
            simp only [List.head?_cons, Option.mem_def, Option.some.injEq] at hx
            exact hx ▸ hw) h1
        rwa [List.append_assoc, show hs.length + 1 + body.length + 1 + rmk.length =
          hs.length + 1 + (body.length + 1 + rmk.length) by omega] at this
  · intro h
    cases h with
    | missing ho hp => exact ⟨_, .nil ho hp .nothing⟩
    | missingFull hf => exact ⟨_, .typed hf (.nil .nothing)⟩
    | cancelled hf => exact ⟨_, .typed hf (.cnl rfl .nothing)⟩
    | @report ty hs body hf hne hs' =>
      obtain ⟨items, hd⟩ := C69_exists (bodyPart_isBody (full_type hf)) body
      exact ⟨_, .typed hf (.body hne hs' hd)⟩
    | @remarks ty hs body rmk hf hs' hr =>
      obtain ⟨items, hd⟩ := C69_exists (bodyPart_isBody (full_type hf)) body
      obtain ⟨ritems, hrd⟩ := C73_exists (headerHour hs) rmk
      have := Meaning.typed hf (.remarks hs' hd (.all hr hrd))
      rw [← List.append_assoc, show hs.length + (body.length + 1 + rmk.length) =
          hs.length + body.length + 1 + rmk.length by omega] at this
      exact ⟨_, this⟩
    | @untyped hs body ho hne hw hs' =>
      obtain ⟨items, hd⟩ := C69_exists (p := .METAR) (Or.inl rfl) body
      cases body with
      | nil => exact absurd rfl hne
      | cons w body =>
        exact ⟨_, .untyped ho (hw w rfl) (by rintro rfl; exact hs' c!"NIL" (by simp) (by simp [stops, bodyPart]))
          (.body hne hs' hd)⟩
    | @untypedRemarks hs body rmk ho hw hs' =>
      obtain ⟨items, hd⟩ := C69_exists (p := .METAR) (Or.inl rfl) body
      obtain ⟨ritems, hrd⟩ := C73_exists (headerHour hs) rmk
      have hb : BodyMeaning .METAR (headerHour hs) _ _ _ _ :=
        .remarks hs' hd (RemarksMeaning.all (ty := .METAR) (by simp) hrd)
      cases body with
      | nil =>
        have := Meaning.untyped ho (period_not_word (Or.inl rfl)) (by simp) hb
        rw [show hs.length + 1 + ([] : List Str).length + 1 + rmk.length =
          hs.length + 1 + (([] : List Str).length + 1 + rmk.length) by omega, List.append_nil]
        exact ⟨_, this⟩
      | cons w body =>
        have := Meaning.untyped ho (hw w rfl) (by rintro rfl; exact hs' c!"NIL" (by simp) (by simp [stops, bodyPart])) hb
        rw [show hs.length + 1 + (w :: body).length + 1 + rmk.length =
          hs.length + 1 + ((w :: body).length + 1 + rmk.length) by omega, List.append_assoc]
        exact ⟨_, this⟩

theorem accepted_pos {ws : List Str} {ty : ReportType} {n : Nat} (h : Accepted ws ty n) : 1 ≤ n := by
  cases h with
  | report _ hne _ =>
    have := List.length_pos_of_ne_nil hne
    omega
  | _ => omega

/-- C86. A text is parsed as a report of type `ty` without error exactly if its words are one of the forms
of `Accepted` and the words counted are fewer than the limit. -/
theorem C86_accepted {report : Str} {ws : List Str} {limit : Nat} (ht : Groups report ws) {ty : ReportType} :
    (∃ r, Result report limit r ∧ r.reportMetadata.type = ty ∧ r.reportMetadata.error = .NONE) ↔
      ∃ n, Accepted ws ty n ∧ n < limit := by
  constructor
  · rintro ⟨r, hr, h1, h2⟩
    have ho := (C84_outcome (limit := limit) ht).mp ⟨r, hr, rfl, h1, h2⟩
    generalize hx : ReportError.NONE = e at ho
    generalize r.groups = gs at ho
    cases ho with
    | within hm hl =>
      subst hx
      have ha := accepted_meaning.mp ⟨_, hm⟩
      have := accepted_pos ha
      exact ⟨_, ha, by omega⟩
    | tooLarge => cases hx
    | third => cases hx
  · rintro ⟨n, ha, hl⟩
    obtain ⟨gs, hm⟩ := accepted_meaning.mpr ha
    obtain ⟨r, hr, -, h1, h2⟩ := (C84_outcome ht).mpr (.within hm (by omega : n < max limit 1))
    exact ⟨r, hr, h1, h2⟩

/-! ### Examples -/

/-- A METAR without its type, with remarks only: six words are counted. -/
example : (∃ r, Result c!"ULLI 112530Z RMK AO2 $=" 7 r ∧ r.reportMetadata.type = .METAR ∧
      r.reportMetadata.error = .NONE) ∧
    ¬ ∃ r, Result c!"ULLI 112530Z RMK AO2 $=" 6 r ∧ r.reportMetadata.type = .METAR ∧
      r.reportMetadata.error = .NONE := by
  have ho : Opening .time .UNKNOWN [(c!"ULLI", .location ⟨c!"ULLI"⟩), (c!"112530Z", .reportTime ⟨⟨some 11, 25, 30⟩⟩)] :=
    .time (hs := [(c!"ULLI", .location ⟨c!"ULLI"⟩)]) (d := 11) (h := 25) (m := 30)
      (.location (hs := []) (Or.inl rfl) .start ⟨'U', 'L', 'L', 'I', rfl, by simp [Capital]⟩)
      (by simp) (by omega) (by omega) (by omega)
  have ha : Accepted [c!"ULLI", c!"112530Z", c!"RMK", c!"AO2", c!"$"] .METAR 6 :=
    .untypedRemarks (body := []) (rmk := [c!"AO2", c!"$"]) ho (by simp) (by simp [BodyWords])
  refine ⟨(C86_accepted (groups_tokens _)).mpr ⟨6, ha, by omega⟩, fun h => ?_⟩
  obtain ⟨n, hn, hl⟩ := (C86_accepted (groups_tokens _)).mp h
  obtain ⟨gs, hm⟩ := accepted_meaning.mpr ha
  obtain ⟨gs', hm'⟩ := accepted_meaning.mpr hn
  have := (C84_meaning_unique hm hm').1
  omega

end Metaf.Props
