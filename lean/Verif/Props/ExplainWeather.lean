import Verif.Spec.WeatherWords
import Verif.Props.ExplainLines
import Verif.Props.ExplainTotal
import Verif.Props.AnyReport

/-!
C108: the words for weather on the page (`/repo/examples/explain.cpp`).
-/

set_option linter.unusedSectionVars false

namespace Metaf.Props

open Metaf Metaf.Spec Metaf.Explain WeatherPhenomena

section

variable [FloatIeee]

/-! ### Lemmas -/

theorem find_lookup (q : Qualifier) (d : Descriptor) (ws : List Weather)
    (l : List (Qualifier × Descriptor × List Weather × Str)) :
    (match l.find? (fun w => q == w.1 && d == w.2.1 && ws == w.2.2.1) with
      | some w => w.2.2.2
      | none => []) =
    ((l.map fun w => ((w.1, w.2.1, w.2.2.1), w.2.2.2)).lookup (q, d, ws)).getD [] := by
  induction l with
  | nil => rfl
  | cons a l ih =>
    have e : ((q, d, ws) == (a.1, a.2.1, a.2.2.1)) = (q == a.1 && d == a.2.1 && ws == a.2.2.1) := by
      rw [Bool.and_assoc]
      rfl
    rw [List.map_cons, List.lookup_cons, List.find?_cons, e]
    cases q == a.1 && d == a.2.1 && ws == a.2.2.1
    · exact ih
    · rfl

theorem special_text (wp : WeatherPhenomena) : specialWeatherPhenomenaToString wp =
    (expressions.lookup (wp.qualifier, wp.descriptor, wp.weather)).getD [] :=
  find_lookup _ _ _ specialWeatherPhenomena

theorem expression_text : ∀ e ∈ expressions, e.2 ≠ [] := by decide +kernel

theorem lookup_found {α β : Type} [BEq α] [LawfulBEq α] {l : List (α × β)} {a : α} {b : β}
    (h : l.lookup a = some b) : (a, b) ∈ l := by
  induction l with
  | nil => exact nomatch h
  | cons e l ih =>
    rw [List.lookup_cons] at h
    split at h
    · next he => cases h; rw [eq_of_beq he]; exact List.mem_cons_self
    · exact List.mem_cons_of_mem _ (ih h)

theorem names_text (ws : List Weather) (previous : Option Weather) (hp : previous = none ∨ ∃ w, previous = some w) :
    Explain.weatherWords (previous.getD .NOT_REPORTED) ws =
      ((ws.zip (previous :: ws.map some)).map fun
        | (.SNOW, some .RAIN) => c!"and snow mix"
        | (.RAIN, some .SNOW) => c!"and rain mix"
        | (w, _) => phenomenonName w).flatMap (· ++ c!" ") := by
  induction ws generalizing previous with
  | nil => rfl
  | cons w ws ih =>
    rw [Explain.weatherWords, List.map_cons, List.zip_cons_cons, List.map_cons, List.flatMap_cons,
      ← ih (some w) (Or.inr ⟨w, rfl⟩), Option.getD_some]
    congr 2
    cases w <;> first | rfl | (cases previous with | none => rfl | some p => cases p <;> rfl)

/-- Descriptors which are used with fog only. -/
def OnlyFog (q : Qualifier) (d : Descriptor) (ws : List Weather) : Prop :=
  d ∈ [Descriptor.SHALLOW, .PARTIAL, .PATCHES] → q = .NONE ∧ ws = [.FOG]

theorem phenomenon_text (wp : WeatherPhenomena) (ho : OnlyFog wp.qualifier wp.descriptor wp.weather)
    (he : wp.event = .NONE ∨ expressions.lookup (wp.qualifier, wp.descriptor, wp.weather) = none) :
    explainWeatherPhenomena wp = phenomenonText wp.qualifier wp.descriptor wp.weather ++ eventText wp.event wp.tm := by
  unfold explainWeatherPhenomena phenomenonText
  rw [special_text]
  generalize wp.qualifier = q at *
  generalize wp.descriptor = d at *
  generalize wp.weather = ws at *
  cases hl : expressions.lookup (q, d, ws) with
  | some t =>
    have hn := expression_text _ (lookup_found hl)
    have ht : (!t.isEmpty) = true := by cases t with | nil => exact absurd rfl hn | cons => rfl
    rcases he with he | he
    · simp only [Option.getD_some, ht, if_true, he]
      simp [eventText]
    · rw [hl] at he; cases he
  | none =>
    have hd : d ∉ [Descriptor.SHALLOW, .PARTIAL, .PATCHES] := by
      intro hd
      obtain ⟨rfl, rfl⟩ := ho hd
      revert hl
      cases d <;> revert hd <;> decide +kernel
    have hn := names_text ws none (Or.inl rfl)
    simp only [Option.getD_none, List.isEmpty_nil, Bool.not_true, Bool.false_eq_true, if_false] at hn ⊢
    rw [hn]
    unfold phenomenonWords phenomenonNames
    simp only [List.flatMap_append]
    generalize List.flatMap _ (List.map _ _) = names
    have hq : (if (weatherPhenomenaQualifierToString q).isEmpty = true then []
        else weatherPhenomenaQualifierToString q ++ c!" ") =
        (([(.LIGHT, c!"light"), (.MODERATE, c!"moderate"), (.HEAVY, c!"heavy")].lookup q).toList).flatMap
          (· ++ c!" ") := by cases q <;> rfl
    have hd' : (if (weatherPhenomenaDescriptorToString d).isEmpty = true then []
        else weatherPhenomenaDescriptorToString d ++ c!" ") =
        (([(.LOW_DRIFTING, c!"low drifting"), (.BLOWING, c!"blowing"), (.FREEZING, c!"freezing")].lookup d).toList).flatMap
          (· ++ c!" ") := by
      revert hd
      cases d <;> intro hd <;> first | rfl | exact absurd (by decide) hd
    have ht : (if d = .SHOWERS then c!"showers " else []) ++
        (if d = .THUNDERSTORM then (if ws.isEmpty = true then [] else c!"with ") ++ c!"thunderstorm " else []) =
        (if d = .SHOWERS then [c!"showers"]
          else if d = .THUNDERSTORM then (if ws = [] then [c!"thunderstorm"] else [c!"with thunderstorm"])
          else []).flatMap (· ++ c!" ") := by
      cases d <;> cases ws <;> rfl
    rw [hq, hd']
    simp only [List.append_assoc]
    rw [← List.append_assoc _ _ (_ ++ eventText _ _), ht]
/-! ### What the words of a group are, the group is -/

theorem body_group {report : Str} {limit : Nat} {r : ParseResult} (h : Result report limit r) {x : GroupInfo}
    (hx : x ∈ r.groups) (hu : ∀ u, x.group ≠ .unknown u) (hp : x.reportPart = .METAR ∨ x.reportPart = .TAF)
    {g : Group} (hw : Written x.reportPart (words x.rawString) g) : x.group = g := by
  have hs := C75_said h x hx
  cases hs with
  | unknown => exact absurd rfl (hu _)
  | header => rcases hp with hp | hp <;> cases hp
  | afterNil => rcases hp with hp | hp <;> cases hp
  | body hp' hw' => exact C69_unique hp' hw' hw
  | remark => rcases hp with hp | hp <;> cases hp
  | remnant => rcases hp with hp | hp <;> cases hp

theorem remark_group {report : Str} {limit : Nat} {r : ParseResult} (h : Result report limit r) {x : GroupInfo}
    (hx : x ∈ r.groups) (hu : ∀ u, x.group ≠ .unknown u) (hp : x.reportPart = .RMK) (hne : x.rawString ≠ [])
    {g : Group} (hw : Remark (hourOf r) (words x.rawString) g) : x.group = settled g := by
  have hs := C75_said h x hx
  generalize hourOf r = now at hs hw
  cases hs with
  | unknown => exact absurd rfl (hu _)
  | header => cases hp
  | afterNil => cases hp
  | body hp' => rcases hp' with e | e <;> · cases e; cases hp
  | remark hr hl =>
    rcases C72_unique now hr hw with e | ⟨w, hm, e⟩
    · rw [e]
    · exact absurd (e ▸ ambiguous_lacking hm) hl
  | remnant => exact absurd rfl hne

theorem allowed_fog {en : Bool} {q : Qualifier} {d : Descriptor} {ws : List Weather} (h : AllowedWeather en q d ws) :
    OnlyFog q d ws := by
  intro hd
  have hpr : ∀ {d ws}, PrecipitationWeather d ws → d ∉ [Descriptor.SHALLOW, .PARTIAL, .PATCHES] := by
    intro d ws h
    have := h.descriptor
    revert this
    cases d <;> decide
  cases h with
  | plain h =>
    cases h with
    | fog => exact ⟨rfl, rfl⟩
    | _ => exact absurd hd (by decide)
  | qualified _ h => cases h <;> exact absurd hd (by decide)
  | precipitation _ h => exact absurd hd (hpr h)
  | intensity _ _ h => exact absurd hd (hpr h)

theorem word_text {s : Str} {p : ReportPart} {q : Qualifier} {d : Descriptor} {ws : List Weather}
    (h : WeatherWord s p q d ws) : explainWeatherPhenomena (made q d ws) = phenomenonText q d ws := by
  have ho : OnlyFog q d ws ∧ ws.length ≤ 3 := by
    rcases h.2 with ⟨-, -, rfl, rfl⟩ | ⟨-, ha⟩
    · exact ⟨fun hd => absurd hd (by decide), by decide⟩
    · exact ⟨allowed_fog ha, (allowed_length ha).1⟩
  obtain ⟨e1, e2, e3, e4, e5⟩ := C40_lossless q d ws .NONE none ho.2
  change (made q d ws).qualifier = q at e1
  change (made q d ws).descriptor = d at e2
  change (made q d ws).weather = ws at e3
  change (made q d ws).event = .NONE at e4
  rw [phenomenon_text _ (by rw [e1, e2, e3]; exact ho.1) (Or.inl e4), e1, e2, e3, e4]
  exact List.append_nil _

theorem two_digits : ∀ n < 100, (if n < 10 then c!"0" else []) ++ showNat n = decimal 2 n := by decide +kernel

/-- The text for the beginning or the end of a phenomenon. -/
def occurrenceText (e : Event) : Str :=
  phenomenonText .NONE e.descriptor e.weather ++ (if e.ending then c!" ended: " else c!" began: ") ++
    decimal 2 e.hour ++ c!":" ++ decimal 2 e.minute ++ c!" GMT"

theorem event_text {e : Event} (ha : AllowedWeather false .NONE e.descriptor e.weather)
    (hn : expressions.lookup (.NONE, e.descriptor, e.weather) = none) (hh : e.hour < 100) (hm : e.minute < 100) :
    explainWeatherPhenomena (stored e) = occurrenceText e := by
  obtain ⟨e1, e2, e3, e4, e5⟩ := stored_fields e (allowed_length ha).1
  rw [phenomenon_text _ (by rw [e1, e2, e3]; exact allowed_fog ha) (Or.inr (by rw [e1, e2, e3]; exact hn)), e1, e2, e3,
    e4, e5]
  unfold occurrenceText
  rw [← two_digits _ hh, ← two_digits _ hm]
  cases e.ending <;> simp [eventText, explainMetafTime]

theorem special_event {e : Event} (ha : AllowedWeather false .NONE e.descriptor e.weather) {t : Str}
    (hn : expressions.lookup (.NONE, e.descriptor, e.weather) = some t) : explainWeatherPhenomena (stored e) = t := by
  obtain ⟨e1, e2, e3, -, -⟩ := stored_fields e (allowed_length ha).1
  have hne := expression_text _ (lookup_found hn)
  unfold explainWeatherPhenomena
  rw [special_text, e1, e2, e3, hn]
  cases t with
  | nil => exact absurd rfl hne
  | cons => rfl

theorem read_all_times {h0 : Nat} (h : h0 < 100) {fs : List EventForm} (hok : ∀ f ∈ fs, f.Ok) :
    ∀ {b : Option (Descriptor × List Weather)} {es : List Event}, readEvents h0 b fs = some es →
    ∀ e ∈ es, e.hour < 100 ∧ e.minute < 100 := by
  induction fs with
  | nil => intro b es hr; cases hr; simp
  | cons f fs ih =>
    intro b es hr e he
    rw [readEvents] at hr
    cases hf : readEvent h0 b f with
    | none => rw [hf] at hr; cases hr
    | some e0 =>
      rw [hf] at hr
      obtain ⟨es', hr', rfl⟩ := Option.map_eq_some_iff.mp hr
      rcases List.mem_cons.mp he with rfl | he
      · obtain ⟨p, -, rfl⟩ := Option.map_eq_some_iff.mp hf
        have := hok f (by simp)
        refine ⟨?_, this.2.2⟩
        cases hh : f.hour with
        | none => simpa [hh] using h
        | some k => simpa [hh] using this.2.1 k hh
      · exact ih (fun f hf => hok f (by simp [hf])) hr' e he

theorem last_time (l : List GroupInfo) : (∀ x ∈ l, timeValue x.group = none) ∨
    ∃ pre x post t, l = pre ++ x :: post ∧ timeValue x.group = some t ∧ ∀ y ∈ post, timeValue y.group = none := by
  induction l with
  | nil => exact Or.inl (by simp)
  | cons a l ih =>
    rcases ih with ih | ⟨pre, x, post, t, rfl, ht, hp⟩
    · cases ha : timeValue a.group with
      | none => exact Or.inl (by simpa [ha] using ih)
      | some t => exact Or.inr ⟨[], a, l, t, rfl, ha, ih⟩
    · exact Or.inr ⟨a :: pre, x, post, t, rfl, ht, hp⟩

theorem time_said {now : Option Nat} {x : GroupInfo} (h : Said now x) {t : MetafTime} (ht : timeValue x.group = some t) :
    ∃ d hh m, d < 100 ∧ hh < 100 ∧ m < 100 ∧ t = ⟨some d, hh, m⟩ ∧ x.rawString = timeText d hh m := by
  cases h with
  | unknown => cases ht
  | header h =>
    cases h with
    | time a b c => cases ht; exact ⟨_, _, _, a, b, c, rfl, rfl⟩
    | _ => cases ht
  | afterNil => cases ht
  | @body p s g hp hw =>
    change timeValue g = some t at ht
    generalize words s = v at hw
    cases hw <;> cases ht
  | @remark s g next hr =>
    change timeValue (settled g) = some t at ht
    have hg : timeValue g = some t := by
      cases g <;> exact ht
    generalize words s = v at hr
    have hf : ∀ e ∈ fixedWords, timeValue e.2 = none := by decide +kernel
    have hm : ∀ e ∈ missingWords, timeValue e.2.1 = none ∧ timeValue e.2.2 = none := by decide +kernel
    cases hr with
    | fixed h => rw [hf _ h] at hg; cases hg
    | missing h => rw [(hm _ h).1] at hg; cases hg
    | missingSaid h => rw [(hm _ h).2] at hg; cases hg
    | _ => cases hg
  | remnant => cases ht

theorem hour_limit {report : Str} {limit : Nat} {r : ParseResult} (h : Result report limit r) {hour : Nat}
    (hh : hourOf r = some hour) : hour < 100 := by
  obtain ⟨-, -, h3, h4⟩ := C14_location_time report limit r h
  unfold hourOf at hh
  rcases last_time r.groups with ha | ⟨pre, x, post, t, hg, ht, hp⟩
  · rw [h3 ha] at hh
    cases hh
  · rw [h4 pre x post t hg ht hp] at hh
    obtain ⟨d, k, m, -, hk, -, rfl, -⟩ := time_said (C75_said h x (by rw [hg]; simp)) ht
    cases hh
    exact hk

/-! ### Theorems -/

/-- C108. Whatever the report, the explanation of weather in the body of the report is the title and a line with the text
of each phenomenon in the order in which they are written. It never begins with the warning. -/
theorem C108_weather {report : Str} {limit : Nat} {r : ParseResult} (h : Result report limit r) {x : GroupInfo}
    (hx : x ∈ r.groups) (hu : ∀ u, x.group ≠ .unknown u) (recent : Bool) {es : List WeatherParts} (hne : es ≠ [])
    (hw : words x.rawString = es.map fun e => weatherWritten e.1 e.2.1 e.2.2)
    (he : ∀ e ∈ es, WeatherWord (weatherWritten e.1 e.2.1 e.2.2) x.reportPart e.1 e.2.1 e.2.2 ∧
      (e.1 = .RECENT ↔ recent = true)) (hl : es.length ≤ 20) :
    visitor.visit x.group x.reportPart x.rawString = .ok (unlines
      ((if recent then c!"Recent weather:" else c!"Weather phenomena:") ::
        es.map fun e => phenomenonText e.1 e.2.1 e.2.2)) := by
  obtain ⟨e0, he0⟩ := List.exists_mem_of_ne_nil _ hne
  have hp : x.reportPart = .METAR ∨ x.reportPart = .TAF := by
    rcases (he _ he0).1.2 with ⟨a, -⟩ | ⟨a | a, -⟩
    · exact Or.inl a
    · exact Or.inl a
    · exact Or.inr a.1
  have hv := weather_valid fun e h => (he e h).1
  have key : ∀ t : WeatherGroupType, t = .CURRENT ∨ t = .RECENT →
      x.group = .weather { t := t, w := es.map fun e => made e.1 e.2.1 e.2.2 } →
      visitor.visit x.group x.reportPart x.rawString =
        .ok (unlines (weatherTitle t :: es.map fun e => phenomenonText e.1 e.2.1 e.2.2)) := by
    intro t ht hg
    rw [hg]
    generalize hgg : ({ t := t, w := es.map fun e => made e.1 e.2.1 e.2.2 } : WeatherGroup) = g at hg
    have hvg : g.isValid = .ok true := by
      subst hgg
      rcases ht with rfl | rfl <;> exact hv
    obtain ⟨e, hs⟩ := weather_shown ⟨_, hvg⟩
    have hs' : visitor.visit (.weather g) x.reportPart x.rawString = .ok e := hs
    have hl := C106_lines_partial hs' (by rintro w ⟨⟩)
    rw [hs', hl]
    have hgv : groupValid (.weather g) = .ok true := hvg
    rw [hgv]
    congr 2
    subst hgg
    have hlist : (es.map fun e => made e.1 e.2.1 e.2.2).map explainWeatherPhenomena =
        es.map fun e => phenomenonText e.1 e.2.1 e.2.2 := by
      rw [List.map_map]
      exact List.map_congr_left fun e h => word_text (he e h).1
    rcases ht with rfl | rfl
    · show weatherTitle _ :: ((es.map fun e => made e.1 e.2.1 e.2.2).map explainWeatherPhenomena ++ []) = _
      rw [hlist, List.append_nil]
    · show weatherTitle _ :: ((es.map fun e => made e.1 e.2.1 e.2.2).map explainWeatherPhenomena ++ []) = _
      rw [hlist, List.append_nil]
  cases recent with
  | false =>
    exact key .CURRENT (Or.inl rfl) (body_group h hx hu hp (hw ▸ .weather hne hl fun e h => ⟨(he e h).1, fun hr =>
      nomatch (he e h).2.mp hr⟩))
  | true =>
    exact key .RECENT (Or.inr rfl) (body_group h hx hu hp (hw ▸ .recentWeather hne hl fun e h => ⟨(he e h).1,
      (he e h).2.mpr rfl⟩))

theorem events_lines {report : Str} {limit : Nat} {r : ParseResult} (h : Result report limit r) {x : GroupInfo}
    (hx : x ∈ r.groups) (hu : ∀ u, x.group ≠ .unknown u) (hp : x.reportPart = .RMK) {hour : Nat}
    (hh : hourOf r = some hour) {fs : List EventForm} (hne : fs ≠ []) (hok : ∀ f ∈ fs, f.Ok) {es : List Event}
    (hr : readEvents hour none fs = some es) (hw : words x.rawString = [(fs.map EventForm.text).flatten]) :
    visitor.visit x.group x.reportPart x.rawString = .ok (unlines
      (lineIf (¬ ∀ e ∈ es.take 20, e.timely) warningLine ++
        c!"Precipitation beginning/ending time:" :: (es.take 20).map fun e => explainWeatherPhenomena (stored e))) := by
  have hg := remark_group h hx hu hp (fun e => by rw [e] at hw; cases hw) (g := .weather { t := .EVENT, w := (es.take 20).map stored })
    (by rw [hw, hh]; exact .events rfl hne hok hr)
  obtain ⟨b, hv, hb⟩ := events_invalid hok hr
  change x.group = .weather { t := .EVENT, w := (es.take 20).map stored } at hg
  rw [hg]
  generalize hgg : ({ t := .EVENT, w := (es.take 20).map stored } : WeatherGroup) = g
  have hvg : g.isValid = .ok b := by subst hgg; exact hv
  obtain ⟨e, hs⟩ := weather_shown ⟨_, hvg⟩
  have hs' : visitor.visit (.weather g) x.reportPart x.rawString = .ok e := hs
  have hl := C106_lines_partial hs' (by rintro w ⟨⟩)
  rw [hs', hl]
  have hgv : groupValid (.weather g) = .ok b := hvg
  rw [hgv]
  have ht : (¬ ∀ e ∈ es.take 20, e.timely) ↔ b = false := by
    rw [hb]
    simp only [TimeWrong, Event.timely]
    constructor
    · intro hn
      by_contra hc
      refine hn fun e he => ?_
      by_contra ht
      refine hc ⟨e, he, Or.inr ?_⟩
      omega
    · rintro ⟨e, he, hw⟩ hall
      have := hall e he
      rcases hw with ⟨d, hd, -⟩ | hw
      · cases hd
      · omega
  congr 3
  · unfold lineIf
    by_cases hbf : b = false
    · rw [if_pos (by rw [hbf]), if_pos (ht.mpr hbf)]
    · rw [if_neg (fun e => hbf (Except.ok.inj e)), if_neg (fun e => hbf (ht.mp e))]
  · subst hgg
    show weatherTitle _ :: (((es.take 20).map stored).map explainWeatherPhenomena ++ []) = _
    rw [List.append_nil, List.map_map]
    rfl

/-- C108, for phenomena without an expression of their own. Whatever the report, the explanation of the beginning and
ending of weather in the remarks is the title and a line for each event with the text for the phenomenon, whether it began
or ended, and the time; after the warning exactly if one of the times cannot be. Missing: phenomena which have an expression
of their own, where it does not hold (`C108_special`, `C108_violated`). -/
theorem C108_events_partial {report : Str} {limit : Nat} {r : ParseResult} (h : Result report limit r) {x : GroupInfo}
    (hx : x ∈ r.groups) (hu : ∀ u, x.group ≠ .unknown u) (hp : x.reportPart = .RMK) {hour : Nat}
    (hh : hourOf r = some hour) {fs : List EventForm} (hne : fs ≠ []) (hok : ∀ f ∈ fs, f.Ok) {es : List Event}
    (hr : readEvents hour none fs = some es) (hw : words x.rawString = [(fs.map EventForm.text).flatten])
    (hn : ∀ e ∈ es, expressions.lookup (.NONE, e.descriptor, e.weather) = none) :
    visitor.visit x.group x.reportPart x.rawString = .ok (unlines
      (lineIf (¬ ∀ e ∈ es.take 20, e.timely) warningLine ++
        c!"Precipitation beginning/ending time:" :: (es.take 20).map occurrenceText)) := by
  rw [events_lines h hx hu hp hh hne hok hr hw]
  congr 4
  have hall := read_all_allowed hok (b := none) (by simp) hr
  have htimes := read_all_times (hour_limit h hh) hok hr
  refine List.map_congr_left fun e he => ?_
  have he := List.mem_of_mem_take he
  exact event_text (hall e he) (hn e he) (htimes e he).1 (htimes e he).2

/-- C108. What is shown for an event of a phenomenon with an expression of its own: the expression alone. -/
theorem C108_special {report : Str} {limit : Nat} {r : ParseResult} (h : Result report limit r) {x : GroupInfo}
    (hx : x ∈ r.groups) (hu : ∀ u, x.group ≠ .unknown u) (hp : x.reportPart = .RMK) {hour : Nat}
    (hh : hourOf r = some hour) {f : EventForm} (hok : f.Ok) {e : Event}
    (hr : readEvents hour none [f] = some [e]) (hw : words x.rawString = [f.text]) {t : Str}
    (hn : expressions.lookup (.NONE, e.descriptor, e.weather) = some t) :
    visitor.visit x.group x.reportPart x.rawString = .ok (unlines
      (lineIf (¬ e.timely) warningLine ++ [c!"Precipitation beginning/ending time:", t])) := by
  have ha := read_all_allowed (fs := [f]) (by simpa using hok) (b := none) (by simp) hr e (by simp)
  rw [events_lines h hx hu hp hh (fs := [f]) (by simp) (by simpa using hok) hr (by simpa using hw)]
  simp [special_event ha hn]

end

/-! ### Cases -/

attribute [local instance] ieee

/-- A report whose weather and remarks are met below. -/
def rainy : Str := c!"METAR ZZZZ 041115Z -TSRASN BCFG VCSH REFZRA RMK TSRAB05E1130SNB61"

example : ∃ r, Result rainy 200 r ∧
    (r.groups.filter fun x => match x.group with | .weather _ => true | _ => false).map (fun x =>
      visitor.visit x.group x.reportPart x.rawString) = [
    .ok (unlines [c!"Weather phenomena:", c!"light rain and snow mix with thunderstorm ",
      c!"patches of fog randomly covering the location", c!"precipitation in vicinity (up to 10 miles away)"]),
    .ok (unlines [c!"Recent weather:", c!"freezing rain "]),
    .ok (unlines [warningLine, c!"Precipitation beginning/ending time:", c!"rain with thunderstorm  began: 11:05 GMT",
      c!"rain with thunderstorm  ended: 11:30 GMT", c!"snow  began: 11:61 GMT"])] := by
  refine ⟨_, rfl, ?_⟩
  decide +kernel

/-- The report of the following. -/
def undetermined : Str := c!"METAR ZZZZ 041115Z RMK UPB05"

/-- C108: the time at which undetermined precipitation began is not shown. -/
theorem C108_violated : ∃ r x f e, Result undetermined 200 r ∧ x ∈ r.groups ∧ x.reportPart = .RMK ∧
    hourOf r = some 11 ∧ EventForm.Ok f ∧ readEvents 11 none [f] = some [e] ∧ words x.rawString = [f.text] ∧
    visitor.visit x.group x.reportPart x.rawString = .ok (unlines [c!"Precipitation beginning/ending time:",
      c!"undetermined precipitation (automated system cannot identify precipitation)"]) := by
  have ha : AllowedWeather false .NONE .NONE [.UNDETERMINED] :=
    .precipitation rfl ⟨by decide, by decide, by decide, by decide, by decide, by decide, by decide⟩
  refine ⟨_, ⟨.weather { t := .EVENT, w := [stored ⟨.NONE, [.UNDETERMINED], false, 11, 5⟩] }, .RMK, c!"UPB05"⟩,
    ⟨some (.NONE, [.UNDETERMINED]), false, none, 5⟩, ⟨.NONE, [.UNDETERMINED], false, 11, 5⟩, rfl, ?_, rfl, ?_,
    ⟨?_, by simp, by decide⟩, rfl, ?_, ?_⟩
  · decide +kernel
  · decide +kernel
  · rintro p ⟨⟩
    exact ha
  · decide +kernel
  · decide +kernel

end Metaf.Props
