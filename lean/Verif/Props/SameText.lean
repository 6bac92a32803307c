import Verif.Props.ExplainEdit
import Verif.Proofs.OutcomeHeader
import Verif.Ieee

/-!
C152: the same text in the same part of any reports is understood and explained in the same way.
-/

set_option linter.unusedSectionVars false

namespace Metaf.Props

open Metaf Metaf.Spec Metaf.Explain

section

variable [FloatIeee]

/-- A group which says what its text says in its part, and what the text is. -/
theorem said_unique {now : Option Nat} {g g' : Group} {p : ReportPart} {s : Str} (hne : s ≠ [])
    (h : Said now ⟨g, p, s⟩) (h' : Said now ⟨g', p, s⟩) (hu : g.isFallback = false) (hu' : g'.isFallback = false) :
    g = g' := by
  cases h with
  | unknown => cases hu
  | header hw =>
    cases h' with
    | unknown => cases hu'
    | header hw' => exact Except.ok.inj ((word_parse hw {}).symm.trans (word_parse hw' {}))
    | body hp => rcases hp with hp | hp <;> cases hp
  | afterNil hk =>
    cases h' with
    | unknown => cases hu'
    | afterNil hk' =>
      have := (keyword_parse_iff.mpr hk).symm.trans (keyword_parse_iff.mpr hk')
      cases this
      rfl
    | body hp => rcases hp with hp | hp <;> cases hp
  | body hp hw _ =>
    cases h' with
    | unknown => cases hu'
    | body _ hw' _ => exact C69_unique hp hw hw'
    | header => rcases hp with hp | hp <;> cases hp
    | afterNil => rcases hp with hp | hp <;> cases hp
    | remark => rcases hp with hp | hp <;> cases hp
    | remnant => rcases hp with hp | hp <;> cases hp
  | remark hw hl =>
    cases h' with
    | unknown => cases hu'
    | remark hw' hl' =>
      rcases C72_unique now hw hw' with e | ⟨w, hm, e⟩
      · rw [e]
      · rw [e] at hl
        refine absurd ?_ hl
        simp only [ambiguous, List.mem_cons, List.not_mem_nil, or_false] at hm
        rcases hm with rfl | rfl | rfl | rfl | rfl <;> exact .phenomenon (t := _) (by simp [vicinityWords]; rfl)
    | remnant => exact absurd rfl hne
    | body hp => rcases hp with hp | hp <;> cases hp
  | remnant => exact absurd rfl hne

/-- C152: if the same text stands in the same part of two reports, or at two places of one report, and is recognised at
both or at none of them, it has been understood in the same way. Remarks are compared in reports of the same hour. -/
theorem C152_group {s s' : Str} {limit limit' : Nat} {r r' : ParseResult} {x x' : GroupInfo} (h : Result s limit r)
    (h' : Result s' limit' r') (hx : x ∈ r.groups) (hx' : x' ∈ r'.groups) (hp : x.reportPart = x'.reportPart)
    (ht : x.rawString = x'.rawString) (hne : x.rawString ≠ [])
    (hu : (∃ u, x.group = .unknown u) ↔ ∃ u, x'.group = .unknown u)
    (hh : x.reportPart = .RMK → hourOf r = hourOf r') : x = x' := by
  obtain ⟨g, p, t⟩ := x
  obtain ⟨g', p', t'⟩ := x'
  obtain rfl : p = p' := hp
  obtain rfl : t = t' := ht
  suffices e : g = g' by rw [e]
  simp only at hu hh hne
  by_cases hf : ∃ u, g = .unknown u
  · obtain ⟨u, rfl⟩ := hf
    obtain ⟨u', rfl⟩ := hu.mp ⟨u, rfl⟩
    rfl
  · have hb : ∀ {g : Group}, (¬ ∃ u, g = .unknown u) → g.isFallback = false := by
      intro g hg
      unfold Group.isFallback
      split
      · exact absurd ⟨_, rfl⟩ hg
      · rfl
    have h1 := C75_said h _ hx
    have h2 := C75_said h' _ hx'
    by_cases hr : p = .RMK
    · rw [hh hr] at h1
      exact said_unique hne h1 h2 (hb hf) (hb fun e => hf (hu.mpr e))
    · have any : ∀ {now now' : Option Nat} {g : Group}, Said now ⟨g, p, t⟩ → Said now' ⟨g, p, t⟩ := by
        intro now now' g hs
        cases hs with
        | unknown => exact .unknown
        | header hw => exact .header hw
        | afterNil hk => exact .afterNil hk
        | body hp hw hf => exact .body hp hw hf
        | remark => exact absurd rfl hr
        | remnant => exact absurd rfl hr
      exact said_unique hne (any h1) h2 (hb hf) (hb fun e => hf (hu.mpr e))

/-- C152: their rows on the pages of the two reports are the same. -/
theorem C152_row {memory memory' s s' out out' : Str} {r r' : ParseResult} {i j : Nat} {x x' : GroupInfo}
    (h : Result s 200 r) (h' : Result s' 200 r') (he : explain memory s = .ok out) (he' : explain memory' s' = .ok out')
    (hx : r.groups[i]? = some x) (hx' : r'.groups[j]? = some x') (hp : x.reportPart = x'.reportPart)
    (ht : x.rawString = x'.rawString) (hne : x.rawString ≠ [])
    (hu : (∃ u, x.group = .unknown u) ↔ ∃ u, x'.group = .unknown u)
    (hh : x.reportPart = .RMK → hourOf r = hourOf r') :
    ∃ rows rows' row, out = pageWith r.reportMetadata rows ∧ out' = pageWith r'.reportMetadata rows' ∧
      rows.length = r.groups.length ∧ rows'.length = r'.groups.length ∧
      rows[i]? = some row ∧ rows'[j]? = some row ∧ row.1 = x.rawString := by
  obtain ⟨rows, h1, e1⟩ := (explain_rows h).mp he
  obtain ⟨rows', h2, e2⟩ := (explain_rows h').mp he'
  obtain rfl := C152_group h h' (List.mem_of_getElem? hx) (List.mem_of_getElem? hx') hp ht hne hu hh
  have at_ : ∀ {gs : List GroupInfo} {rows : List (Str × Str)} {i : Nat}, List.Forall₂ RowOf gs rows →
      gs[i]? = some x → ∃ row, rows[i]? = some row ∧ RowOf x row := by
    intro gs rows i hf
    induction hf generalizing i with
    | nil => exact fun h => nomatch h
    | cons hrow _ ih =>
      intro hi
      cases i with
      | zero =>
        obtain rfl := Option.some.inj hi
        exact ⟨_, rfl, hrow⟩
      | succ i => exact ih hi
  obtain ⟨row, f1, k1⟩ := at_ h1 hx
  obtain ⟨row', f2, k2⟩ := at_ h2 hx'
  obtain rfl : row = row' := Prod.ext (k1.1.trans k2.1.symm) (Except.ok.inj (k1.2.symm.trans k2.2))
  exact ⟨rows, rows', row, e1, e2, h1.length_eq.symm, h2.length_eq.symm, f1, f2, k1.1⟩

end

section

attribute [local instance] ieee

/-- What is known of the groups of a result with a text. -/
def groupsWith (s t : Str) : List (ReportPart × Group) :=
  match Parser.parse s 200 with
  | .ok r => (r.groups.filter fun x => x.rawString == t).map fun x => (x.reportPart, x.group)
  | .error _ => []

/-- `12` knots of wind in two reports on other matters. -/
example : groupsWith c!"METAR EFHK 171250Z 24012KT CAVOK" c!"24012KT" =
    groupsWith c!"SPECI ULLI 302359Z XYZ 9999 24012KT RMK AO2" c!"24012KT" ∧
    (groupsWith c!"METAR EFHK 171250Z 24012KT CAVOK" c!"24012KT").length = 1 := by decide +kernel

/-- Frozen precipitation in a remark is that of 3 or of 6 hours, depending on the hour of the report. -/
theorem C152_hour_needed : ∃ s s' t, (groupsWith s t).map Prod.fst = [.RMK] ∧ (groupsWith s' t).map Prod.fst = [.RMK] ∧
    groupsWith s t ≠ groupsWith s' t :=
  ⟨c!"METAR EFHK 171200Z CAVOK RMK 60217", c!"METAR EFHK 171500Z CAVOK RMK 60217", c!"60217",
    by decide +kernel, by decide +kernel, by decide +kernel⟩

end

end Metaf.Props
