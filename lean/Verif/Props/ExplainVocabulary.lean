import Verif.Spec.Vocabulary
import Verif.Props.ExplainTable
import Verif.Props.AnyReport

/-!
C107: every code is explained in the words for it (`/repo/examples/explain.cpp`).
-/

set_option linter.unusedSectionVars false

namespace Metaf.Props

open Metaf Metaf.Spec Metaf.Explain

section

variable [FloatIeee]

/-! ### Reading the words of one group -/

/-- The group as which a word is recognised. -/
def firstGroup (p : ReportPart) (md : ReportMetadata) (w : Str) : Option Group :=
  (List.range 21).findSome? fun i =>
    match recognise i w p md with
    | .ok (some g) => some g
    | _ => none

/-- The group after it has taken more words. -/
def moreGroup (p : ReportPart) (md : ReportMetadata) (g : Group) : List Str → Option Group
  | [] => some g
  | w :: ws =>
    match g.append w p md with
    | .ok (g', .APPENDED) => moreGroup p md g' ws
    | _ => none

/-- The group made up of words. -/
def readGroup (p : ReportPart) (md : ReportMetadata) : List Str → Option Group
  | [] => none
  | w :: ws =>
    match firstGroup p md w with
    | some g => moreGroup p md g ws
    | none => none

theorem firstGroup_reads {p : ReportPart} {md : ReportMetadata} {w : Str} {g : Group}
    (h : firstGroup p md w = some g) : Reads p md [w] g := by
  obtain ⟨i, -, hi⟩ := List.exists_of_findSome?_eq_some h
  split at hi
  · next g' e => cases hi; exact .first e
  · exact nomatch hi

theorem moreGroup_reads {p : ReportPart} {md : ReportMetadata} {ws vs : List Str} {g g' : Group}
    (hr : Reads p md vs g) (h : moreGroup p md g ws = some g') : Reads p md (vs ++ ws) g' := by
  induction ws generalizing vs g with
  | nil => cases h; simpa using hr
  | cons w ws ih =>
    simp only [moreGroup] at h
    split at h
    · next g1 e => simpa using ih (hr.more e) h
    · exact nomatch h

theorem readGroup_reads {p : ReportPart} {md : ReportMetadata} {ws : List Str} {g : Group}
    (h : readGroup p md ws = some g) : Reads p md ws g := by
  cases ws with
  | nil => exact nomatch h
  | cons w ws =>
    simp only [readGroup] at h
    split at h
    · next g1 e => exact moreGroup_reads (firstGroup_reads e) h
    · exact nomatch h

/-- The group made up of words is explained by these lines. -/
def explainedBy (p : ReportPart) (md : ReportMetadata) (e : Str × List Str) : Bool :=
  match readGroup p md (words e.1) with
  | some g => decide (visitor.visit (if p = .RMK then settled g else g) p e.1 = .ok (unlines e.2))
  | none => false

end

attribute [local instance] ieee

theorem metar_vocabulary (hour : Option Nat) : (vocabulary hour .METAR).all (explainedBy .METAR {}) = true := by
  have : (vocabulary none .METAR).all (explainedBy .METAR {}) = true := by decide +kernel
  exact this

theorem taf_vocabulary (hour : Option Nat) : (vocabulary hour .TAF).all (explainedBy .TAF {}) = true := by
  have : (vocabulary none .TAF).all (explainedBy .TAF {}) = true := by decide +kernel
  exact this

/-- What was said before, as far as it matters for remarks. -/
def madeAt (hour : Option Nat) : ReportMetadata := { reportTime := hour.map fun h => ⟨none, h, 0⟩ }

theorem remark_vocabulary_at (h : Nat) : true = remarkWords.all (explainedBy .RMK (madeAt (some h))) := by
  kernel_rfl

theorem remark_vocabulary (hour : Option Nat) : remarkWords.all (explainedBy .RMK (madeAt hour)) = true := by
  cases hour with
  | none => decide +kernel
  | some h => exact (remark_vocabulary_at h).symm

theorem remark_unambiguous : ∀ e ∈ remarkWords, e.1 ≠ [] ∧ ∀ w ∈ ambiguous, words e.1 ≠ [w] := by decide +kernel

theorem header_vocabulary : ∀ e ∈ headerWords, e.1.length ≠ 4 ∧ e.1.length ≠ 7 ∧ e.1.length ≠ 9 ∧
    ∀ k ∈ keywords, k.1 = e.1 → ReportPart.HEADER ∈ k.2.2 →
      visitor.visit (.keyword ⟨k.2.1⟩) .HEADER e.1 = .ok (unlines e.2) := by decide +kernel

theorem explained_reads {p : ReportPart} {md : ReportMetadata} {e : Str × List Str} {v : List (Str × List Str)}
    (h : v.all (explainedBy p md) = true) (he : e ∈ v) :
    ∃ g, Reads p md (words e.1) g ∧
      visitor.visit (if p = .RMK then settled g else g) p e.1 = .ok (unlines e.2) := by
  have h1 := List.all_eq_true.mp h e he
  unfold explainedBy at h1
  split at h1
  · next g hg => exact ⟨g, readGroup_reads hg, of_decide_eq_true h1⟩
  · exact nomatch h1

/-- What frozen precipitation is said to be at the hour. -/
def frozenAt (hour : Option Nat) : PrecipitationType :=
  PrecipitationGroup.typeFromString c!"6" (madeAt hour).reportTime

theorem frozen_since (hour : Option Nat) :
    frozenAt hour = (if hour ∈ [0, 5, 6, 11, 12, 17, 18, 23].map some then .FROZEN_PRECIP_6_HOURLY
      else if hour ∈ [2, 3, 8, 9, 14, 15, 20, 21].map some then .FROZEN_PRECIP_3_HOURLY
      else .FROZEN_PRECIP_3_OR_6_HOURLY) := by
  cases hour with
  | none => rfl
  | some h =>
    have e (l : List Nat) : l.contains h = decide (some h ∈ l.map some) := by
      rw [Bool.eq_iff_iff]
      simp
    simp only [frozenAt, PrecipitationGroup.typeFromString, madeAt, Option.map_some, Option.any_some,
      MetafTime.is6hourlyReportTime, MetafTime.is3hourlyReportTime, e, decide_eq_true_eq]
    rfl

/-- The group of frozen precipitation. -/
def frozenGroup (t : PrecipitationType) (amount : Str) : Option PrecipitationGroup :=
  match Precipitation.fromRemarkString amount (PrecipitationGroup.factorFromType t)
      (PrecipitationGroup.unitFromType t) true with
  | none => none
  | some amount => some { precType := t, precAmount := amount }

theorem frozen_zero (hour : Option Nat) : Except.ok ((frozenGroup (frozenAt hour) c!"0000").map .precipitation) =
    recognise 13 c!"60000" .RMK (madeAt hour) := by kernel_rfl

theorem frozen_none (hour : Option Nat) : Except.ok ((frozenGroup (frozenAt hour) c!"////").map .precipitation) =
    recognise 13 c!"6////" .RMK (madeAt hour) := by kernel_rfl

/-- The lines about frozen precipitation are right for the type. -/
def frozenRight (t : PrecipitationType) (since : Str) : Bool :=
  [(c!"60000", c!"0000", c!": trace amount"), (c!"6////", c!"////", c!": not reported")].all fun (s, a, l) =>
    match frozenGroup t a with
    | some g => decide (visitor.visit (.precipitation g) .RMK s =
        .ok (unlines [c!"Water equivalent of frozen precipitation" ++ since ++ l]))
    | none => false

theorem frozen_right : frozenRight .FROZEN_PRECIP_6_HOURLY c!"for the last 6 hours" = true ∧
    frozenRight .FROZEN_PRECIP_3_HOURLY c!" for the last 3 hours" = true ∧
    frozenRight .FROZEN_PRECIP_3_OR_6_HOURLY c!" for the last 3 or 6 hours" = true := by decide +kernel

theorem frozen_lines {hour : Option Nat} {since : Str} (h : frozenRight (frozenAt hour) since = true)
    {e : Str × List Str}
    (he : e ∈ [(c!"60000", [c!"Water equivalent of frozen precipitation" ++ since ++ c!": trace amount"]),
      (c!"6////", [c!"Water equivalent of frozen precipitation" ++ since ++ c!": not reported"])]) :
    ∃ g, Reads .RMK (madeAt hour) (words e.1) g ∧ visitor.visit (settled g) .RMK e.1 = .ok (unlines e.2) := by
  simp only [frozenRight, List.all_cons, List.all_nil, Bool.and_true, Bool.and_eq_true] at h
  obtain ⟨h1, h2⟩ := h
  rcases List.mem_cons.mp he with rfl | he
  · split at h1
    · next g hg =>
      refine ⟨.precipitation g, .first (i := 13) ?_, of_decide_eq_true h1⟩
      refine (frozen_zero hour).symm.trans ?_
      rw [hg]
      rfl
    · exact nomatch h1
  · cases List.mem_singleton.mp he
    split at h2
    · next g hg =>
      refine ⟨.precipitation g, .first (i := 13) ?_, of_decide_eq_true h2⟩
      refine (frozen_none hour).symm.trans ?_
      rw [hg]
      rfl
    · exact nomatch h2

theorem frozen_reads (hour : Option Nat) {e : Str × List Str} (he : e ∈ frozenWords hour) :
    ∃ g, Reads .RMK (madeAt hour) (words e.1) g ∧ visitor.visit (settled g) .RMK e.1 = .ok (unlines e.2) := by
  have hf := frozen_since hour
  unfold frozenWords at he
  by_cases h6 : hour ∈ [0, 5, 6, 11, 12, 17, 18, 23].map some
  · rw [if_pos h6] at he hf
    exact frozen_lines (hf ▸ frozen_right.1) he
  · rw [if_neg h6] at he hf
    by_cases h3 : hour ∈ [2, 3, 8, 9, 14, 15, 20, 21].map some
    · rw [if_pos h3] at he hf
      exact frozen_lines (hf ▸ frozen_right.2.1) he
    · rw [if_neg h3] at he hf
      exact frozen_lines (hf ▸ frozen_right.2.2) he

theorem frozen_words (hour : Option Nat) {e : Str × List Str} (he : e ∈ frozenWords hour) :
    e.1 = c!"60000" ∨ e.1 = c!"6////" := by
  rcases List.mem_cons.mp he with rfl | he
  · exact Or.inl rfl
  · cases List.mem_singleton.mp he
    exact Or.inr rfl

theorem remark_explained (hour : Option Nat) {e : Str × List Str} (he : e ∈ vocabulary hour .RMK) :
    ∃ g, Reads .RMK (madeAt hour) (words e.1) g ∧ visitor.visit (settled g) .RMK e.1 = .ok (unlines e.2) := by
  rcases List.mem_append.mp he with he | he
  · exact explained_reads (remark_vocabulary hour) he
  · exact frozen_reads hour he

theorem remark_once (hour : Option Nat) {e : Str × List Str} (he : e ∈ vocabulary hour .RMK) :
    e.1 ≠ [] ∧ ∀ w ∈ ambiguous, words e.1 ≠ [w] := by
  rcases List.mem_append.mp he with he | he
  · exact remark_unambiguous e he
  · rcases frozen_words hour he with h | h <;> rw [h] <;> decide +kernel

/-! ### Theorems -/

/-- C107. Whatever the report, the explanation of a group which is a code of the vocabulary of its part of the
report consists of the lines which the vocabulary has for the code. -/
theorem C107_words {report : Str} {limit : Nat} {r : ParseResult} (h : Result report limit r) {x : GroupInfo}
    (hx : x ∈ r.groups) (hu : ∀ u, x.group ≠ .unknown u) {lines : List Str}
    (hv : (x.rawString, lines) ∈ vocabulary (hourOf r) x.reportPart) :
    visitor.visit x.group x.reportPart x.rawString = .ok (unlines lines) := by
  have hs := C75_said h x hx
  generalize hourOf r = now at hs hv
  cases hs with
  | unknown => exact absurd rfl (hu _)
  | @header s g hw =>
    obtain ⟨h4, h7, h9, hk⟩ := header_vocabulary _ hv
    cases hw with
    | keyword hk' =>
      obtain ⟨ps, hm, hp⟩ := hk'
      exact hk _ hm rfl hp
    | location hl =>
      obtain ⟨a, b, c, d, rfl, -⟩ := hl
      exact absurd rfl h4
    | time hd hh hm => exact absurd (by simp [timeText, decimal_length]) h7
    | period => exact absurd (by simp [TrendWord.text, decimal_length]) h9
  | afterNil => exact nomatch hv
  | @body p s g hp hw =>
    have ha : (vocabulary now p).all (explainedBy p {}) = true := by
      rcases hp with rfl | rfl
      · exact metar_vocabulary _
      · exact taf_vocabulary _
    obtain ⟨g', hr, hg⟩ := explained_reads ha hv
    have hne : p ≠ .RMK := by rcases hp with rfl | rfl <;> decide
    rw [if_neg hne] at hg
    rw [reads_unique hp (written_reads hp hw) hr]
    exact hg
  | @remark s g next hr _ =>
    have hr : Reads .RMK (madeAt now) (words s) g := by
      refine remark_reads ?_
      cases now <;> exact hr
    obtain ⟨g', hr', hg⟩ := remark_explained now hv
    rcases remark_unique hr hr' with e | ⟨w, hw, e⟩
    · rw [e]; exact hg
    · exact absurd e ((remark_once now hv).2 w hw)
  | remnant => exact absurd rfl (remark_once now hv).1

/-- C107. Every code of the vocabulary of the body of a report is a group there. -/
theorem C107_body (hour : Option Nat) {p : ReportPart} (hp : p = .METAR ∨ p = .TAF) {s : Str} {lines : List Str}
    (hv : (s, lines) ∈ vocabulary hour p) : ∃ g, Written p (words s) g := by
  have ha : (vocabulary hour p).all (explainedBy p {}) = true := by
    rcases hp with rfl | rfl
    · exact metar_vocabulary _
    · exact taf_vocabulary _
  obtain ⟨g, hr, -⟩ := explained_reads ha hv
  exact ⟨g, reads_written hp hr⟩

/-- C107. Every code of the vocabulary of remarks is a remark. -/
theorem C107_remark (hour : Option Nat) {s : Str} {lines : List Str}
    (hv : (s, lines) ∈ vocabulary hour .RMK) : ∃ g, Remark hour (words s) g := by
  obtain ⟨g, hr, -⟩ := remark_explained hour hv
  refine ⟨g, ?_⟩
  have := reads_remark hr
  cases hour <;> exact this

/-! ### Cases -/

example : (c!"+TSRAGR", [c!"Weather phenomena:", c!"heavy rain hail with thunderstorm "]) ∈
    vocabulary (some 11) .METAR := by decide +kernel

/-- A report with a code of each part. -/
def spoken : Str := c!"SPECI ZZZZ 041115Z AUTO +TSRAGR NSC R24L/SNOCLO RMK AO2 VISNO NE 60000"

example : ∃ r, Result spoken 200 r ∧ r.groups.all (fun x =>
    match visitor.visit x.group x.reportPart x.rawString with
    | .ok t => x.reportPart = .HEADER ∨ x.rawString = c!"R24L/SNOCLO" ∨ x.rawString = c!"RMK" ∨
        ((vocabulary (hourOf r) x.reportPart).lookup x.rawString).map unlines = some t
    | .error _ => false) = true := by
  refine ⟨_, rfl, ?_⟩
  decide +kernel

end Metaf.Props
