import Verif.Props.AnyReport
import Verif.Proofs.RemarkFold
import Verif.Ieee

/-!
C153: words which are read both in the body of a METAR and in the body of a TAF say the same in both, except for time
spans.
-/

set_option linter.unusedSectionVars false

namespace Metaf.Props

open Metaf Metaf.Spec

/-- Two pairs of times with two digits each: `ddhh/ddhh` or `hhmm/hhmm`. -/
def SpanText (w : Str) : Prop :=
  ∃ a b c d, a < 100 ∧ b < 100 ∧ c < 100 ∧ d < 100 ∧
    w = decimal 2 a ++ decimal 2 b ++ c!"/" ++ decimal 2 c ++ decimal 2 d

/-- The kinds of groups of a METAR body and of a TAF body which may have common texts. -/
def commonKinds : List Nat := [0, 3, 4, 5, 6, 7]

def bodiesApart : Bool :=
  (List.range 21).all fun i => (List.range 21).all fun j =>
    (i == j && commonKinds.contains i) || Rx.apart 12 (shape i .METAR) (shape j .TAF)

theorem bodies_apart : bodiesApart = true := by decide +kernel

section

variable [FloatIeee]

theorem common_kind {s : Str} {md md' : ReportMetadata} {i j : Nat} {g g' : Group}
    (h : recognise i s .METAR md = .ok (some g)) (h' : recognise j s .TAF md' = .ok (some g')) :
    i = j ∧ i ∈ commonKinds := by
  obtain ⟨hi, h1⟩ := recognise_shape h
  obtain ⟨hj, h2⟩ := recognise_shape h'
  have := List.all_eq_true.mp (List.all_eq_true.mp bodies_apart i (List.mem_range.mpr hi)) j (List.mem_range.mpr hj)
  simp only [Bool.or_eq_true, Bool.and_eq_true, beq_iff_eq, List.contains_iff_mem] at this
  rcases this with h | h
  · exact h
  · exact (Rx.apart_sound _ _ _ h s h1 h2).elim

theorem trend_word_same {u v : TrendWord} (hu : u.Ok) (hv : v.Ok) (au : u.AllowedIn .METAR) (av : v.AllowedIn .TAF)
    (e : u.text = v.text) (hn : ¬ SpanText v.text) : u = v := by
  have key : ∀ a b c d, v ≠ .span a b c d := by
    rintro a b c d rfl
    exact hn ⟨a, b, c, d, hv.1, hv.2.1, hv.2.2.1, hv.2.2.2, rfl⟩
  have hl := congrArg List.length e
  cases u <;> cases v <;> first
    | rfl
    | (exact absurd rfl (key _ _ _ _))
    | (exfalso; simp [TrendWord.AllowedIn] at au; done)
    | (exfalso; simp [TrendWord.AllowedIn] at av; done)
    | (exfalso; simp [TrendWord.text, decimal_length] at hl; done)
    | (exfalso; simp [TrendWord.text] at e)

theorem sentence_allowed {p : ReportPart} {ws : List TrendWord} (h : TrendSentence p ws) :
    ∀ w ∈ ws, w.Ok ∧ w.AllowedIn p := by
  induction h with
  | one h1 h2 =>
    intro w hw
    rw [List.mem_singleton.mp hw]
    exact ⟨h1, h2⟩
  | more _ h1 h2 _ ih =>
    intro w hw
    rcases List.mem_append.mp hw with hw | hw
    · exact ih w hw
    · rw [List.mem_singleton.mp hw]
      exact ⟨h1, h2⟩

theorem trend_words_same {us vs : List TrendWord} (hu : ∀ w ∈ us, w.Ok ∧ w.AllowedIn .METAR)
    (hv : ∀ w ∈ vs, w.Ok ∧ w.AllowedIn .TAF) (e : us.map TrendWord.text = vs.map TrendWord.text)
    (hn : ∀ w ∈ vs, ¬ SpanText w.text) : us = vs := by
  induction us generalizing vs with
  | nil =>
    cases vs with
    | nil => rfl
    | cons v vs => cases e
  | cons u us ih =>
    cases vs with
    | nil => cases e
    | cons v vs =>
      rw [List.map_cons, List.map_cons] at e
      obtain ⟨e1, e2⟩ := List.cons.inj e
      rw [trend_word_same (hu u (by simp)).1 (hv v (by simp)).1 (hu u (by simp)).2 (hv v (by simp)).2 e1 (hn v (by simp)),
        ih (fun w hw => hu w (by simp [hw])) (fun w hw => hv w (by simp [hw])) e2 (fun w hw => hn w (by simp [hw]))]

/-- C153: words which are read as a group in the body of a METAR and in the body of a TAF say the same in both, unless
there is a time span among them. -/
theorem C153_same {ws : List Str} {g g' : Group} (h : Written .METAR ws g) (h' : Written .TAF ws g')
    (hn : ∀ w ∈ ws, ¬ SpanText w) : g = g' := by
  obtain ⟨w, l, x, e, hx⟩ := reads_first (written_reads (md := {}) (Or.inl rfl) h)
  obtain ⟨w', l', x', e', hx'⟩ := reads_first (written_reads (md := {}) (Or.inr rfl) h')
  obtain ⟨rfl, rfl⟩ := List.cons.inj (e.symm.trans e')
  obtain ⟨hi, hk⟩ := common_kind hx hx'
  rw [hi] at hk
  have conv : Written .METAR ws g' → g = g' := C69_unique (Or.inl rfl) h
  have off : g'.index ∉ commonKinds → g = g' := fun h => absurd hk h
  cases h' with
  | @keyword s k hw =>
    refine conv (.keyword ?_)
    obtain ⟨ps, h1, h2⟩ := hw
    refine ⟨ps, h1, ?_⟩
    simp only [keywords, List.mem_cons, Prod.mk.injEq, List.not_mem_nil, or_false] at h1
    rcases h1 with ⟨-, -, rfl⟩ | ⟨-, -, rfl⟩ | ⟨-, -, rfl⟩ | ⟨-, -, rfl⟩ | ⟨-, -, rfl⟩ | ⟨-, -, rfl⟩ | ⟨-, -, rfl⟩ |
      ⟨-, -, rfl⟩ | ⟨-, -, rfl⟩ | ⟨-, -, rfl⟩ | ⟨-, -, rfl⟩ | ⟨-, -, rfl⟩ | ⟨-, -, rfl⟩ | ⟨-, -, rfl⟩ | ⟨-, -, rfl⟩ |
      ⟨-, -, rfl⟩ <;> first | (exfalso; revert h2; decide) | decide
  | @trend vs hs =>
    have ht : g.index = 3 := hi
    generalize hws : vs.map TrendWord.text = ws at *
    cases h with
    | @trend us hs' =>
      rw [trend_words_same (sentence_allowed hs') (sentence_allowed hs) hws.symm (fun w hw => hn _ (by
        rw [← hws]
        exact List.mem_map_of_mem hw))]
    | _ => exact absurd ht (Nat.ne_of_beq_eq_false rfl)
  | wind hs =>
    cases hs with
    | wind h1 h2 => exact conv (.wind (.wind (Or.inl rfl) h2))
    | windAndSector h1 h2 h3 h4 h5 h6 => exact conv (.wind (.windAndSector (Or.inl rfl) h2 h3 h4 h5 h6))
    | sector h1 h2 h3 => exact conv (.wind (.sector (Or.inl rfl) h2 h3))
    | shearConditions =>
      obtain ⟨rfl, -⟩ := List.cons.inj e
      rw [hi] at hx
      cases hx
    | shear q => cases q
    | shearAll q => cases q
    | shearAllRunways q => cases q
    | shearRunway q => cases q
    | missing q => cases q
    | missingWind q => cases q
    | peak q => cases q
    | peakWord q => cases q
    | peakWind q => cases q
    | shift q => cases q
    | shiftFront q => cases q
    | shiftTime q => cases q
    | shiftTimeFront q => cases q
  | visibility h1 => exact conv (.visibility h1)
  | milesAndFraction h1 h2 h3 h4 => exact conv (.milesAndFraction h1 h2 h3 h4)
  | noClouds h1 => exact conv (.noClouds h1)
  | cloud h1 => exact conv (.cloud h1)
  | noWeather => exact conv .noWeather
  | weather h1 h2 h3 =>
    refine conv (.weather h1 h2 fun e he => ⟨⟨rfl, ?_⟩, (h3 e he).2⟩)
    rcases (h3 e he).1.2 with ⟨q, -⟩ | ⟨-, q⟩
    · cases q
    · exact Or.inr ⟨Or.inl rfl, q⟩
  | recentWeather h1 h2 h3 =>
    refine conv (.recentWeather h1 h2 fun e he => ⟨⟨rfl, ?_⟩, (h3 e he).2⟩)
    rcases (h3 e he).1.2 with ⟨q, -⟩ | ⟨-, q⟩
    · cases q
    · exact Or.inr ⟨Or.inl rfl, q⟩
  | runwayVisualRange h1 => cases h1
  | temperature h1 => cases h1
  | pressure h1 => cases h1
  | snowClosed h1 => cases h1
  | runwayState h1 => cases h1
  | seaSurface h1 => cases h1
  | rainfall h1 => cases h1
  | forecastPressure => exact off (by simp [commonKinds, Group.index])
  | forecastTemperature => exact off (by simp [commonKinds, Group.index])
  | forecastTemperatures => exact off (by simp [commonKinds, Group.index])
  | layer => exact off (by simp [commonKinds, Group.index])
  | misc => exact off (by simp [commonKinds, Group.index])

/-- C153: a time span alone is read in both, and says hours and minutes in a METAR but days and hours in a TAF. -/
theorem C153_span {a b c d : Nat} (ha : a < 100) (hb : b < 100) (hc : c < 100) (hd : d < 100) :
    ∃ g g', Written .METAR [decimal 2 a ++ decimal 2 b ++ c!"/" ++ decimal 2 c ++ decimal 2 d] (.trend g) ∧
      Written .TAF [decimal 2 a ++ decimal 2 b ++ c!"/" ++ decimal 2 c ++ decimal 2 d] (.trend g') ∧
      g.tFrom = some ⟨none, a, b⟩ ∧ g.tTill = some ⟨none, c, d⟩ ∧
      g'.tFrom = some ⟨some a, b, 0⟩ ∧ g'.tTill = some ⟨some c, d, 0⟩ :=
  ⟨trendMeaning [.spanMinutes a b c d], trendMeaning [.span a b c d],
    .trend (ws := [.spanMinutes a b c d]) (.one ⟨ha, hb, hc, hd⟩ rfl),
    .trend (ws := [.span a b c d]) (.one ⟨ha, hb, hc, hd⟩ (Or.inl rfl)), rfl, rfl, rfl, rfl⟩

/-- C153: groups of any results, one in the body of a METAR and one in the body of a TAF, which have the same text
without a time span, are equal, unless they are not recognised. -/
theorem C153_group {s s' : Str} {limit limit' : Nat} {r r' : ParseResult} {x x' : GroupInfo} (h : Result s limit r)
    (h' : Result s' limit' r') (hx : x ∈ r.groups) (hx' : x' ∈ r'.groups) (hp : x.reportPart = .METAR)
    (hp' : x'.reportPart = .TAF) (ht : x.rawString = x'.rawString) (hu : ∀ u, x.group ≠ .unknown u)
    (hu' : ∀ u, x'.group ≠ .unknown u) (hn : ∀ w ∈ words x.rawString, ¬ SpanText w) : x.group = x'.group := by
  obtain ⟨g, p, t⟩ := x
  obtain ⟨g', p', t'⟩ := x'
  obtain rfl : t = t' := ht
  obtain rfl : p = .METAR := hp
  obtain rfl : p' = .TAF := hp'
  have h1 := C75_said h _ hx
  have h2 := C75_said h' _ hx'
  cases h1 with
  | unknown => exact absurd rfl (hu _)
  | body _ hw _ =>
    cases h2 with
    | unknown => exact absurd rfl (hu' _)
    | body _ hw' _ => exact C153_same hw hw' hn

/-- Wind with a varying direction, in two words. -/
example : ∃ g, Written .METAR [c!"24012KT", c!"200V280"] g ∧ Written .TAF [c!"24012KT", c!"200V280"] g := by
  have hw : WindText.Ok ⟨none, .tens 24, some 12, none, .KNOTS⟩ := ⟨fun h hh => (by cases hh),
    (by show (24 : Nat) < 100; norm_num), fun n hn => (by cases hn; norm_num), fun n hn => (by cases hn),
    fun e => (by cases e)⟩
  exact ⟨_, .wind (.windAndSector (w := ⟨none, .tens 24, some 12, none, .KNOTS⟩) (a := 20) (b := 28) (Or.inl rfl) hw rfl
    (by decide) (by norm_num) (by norm_num)),
    .wind (.windAndSector (w := ⟨none, .tens 24, some 12, none, .KNOTS⟩) (a := 20) (b := 28) (Or.inr rfl) hw rfl
    (by decide) (by norm_num) (by norm_num))⟩

end

end Metaf.Props
