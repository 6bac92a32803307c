import Verif.Props.SummaryExact
import Verif.Props.Decoding

/-!
C149: from the words of a METAR report to its summary.
-/

set_option linter.unusedSectionVars false

namespace Metaf.Props

open Metaf Metaf.Spec Metaf.Summary

/-- A layer of clouds: its amount, its height in hundreds of feet and whether it is convective. -/
structure Layer where
  amount : Str × Metaf.Amount
  height : Nat
  convective : Str × ConvectiveType

/-- What is observed: wind, visibility in metres, weather, layers of clouds, temperature and dew point, each as a number
of degrees with a mark whether it is below zero, and pressure in hectopascals. -/
structure Observation where
  wind : WindText
  visibility : Nat
  weather : List WeatherParts
  clouds : List Layer
  temperature : Bool × Nat
  dewPoint : Bool × Nat
  pressure : Nat

/-- The values can be written. -/
structure Observation.Ok (o : Observation) : Prop where
  wind : o.wind.Ok
  noShear : o.wind.shear = none
  visibility : o.visibility < 10000
  weather : ∀ e ∈ o.weather, WeatherWord (weatherWritten e.1 e.2.1 e.2.2) .METAR e.1 e.2.1 e.2.2 ∧ e.1 ≠ .RECENT
  weatherCount : o.weather.length ≤ 20
  clouds : ∀ c ∈ o.clouds, c.amount ∈ amountNames ∧ c.height < 1000 ∧ c.convective ∈ convectiveNames ∧
    (c.amount.2 = .OBSCURED → c.convective.2 = .NONE)
  temperature : o.temperature.2 < 100
  dewPoint : o.dewPoint.2 < 100
  pressure : o.pressure < 10000

/-- The words for what is observed. -/
def Observation.words (o : Observation) : List Str :=
  [o.wind.text, decimal 4 o.visibility] ++ o.weather.map (fun e => weatherWritten e.1 e.2.1 e.2.2) ++
  o.clouds.map (fun c => c.amount.1 ++ decimal 3 c.height ++ c.convective.1) ++
  [(Degrees.value o.temperature.1 o.temperature.2).text ++ c!"/" ++ (Degrees.value o.dewPoint.1 o.dewPoint.2).text,
   'Q' :: decimal 4 o.pressure]

/-- A number of degrees with its sign. -/
def signedDegrees (t : Bool × Nat) : Int := if t.1 then -(t.2 : Int) else t.2

/-- A speed in miles or kilometres per hour without its fraction; −250 if it is missing. -/
def perHour (imperial : Bool) (u : SpeedUnit) (o : Option Nat) : Int :=
  match o with
  | some n => ⌊(n : Rat) * (mpsPer u / mpsPer (if imperial then .MILES_PER_HOUR else .KILOMETERS_PER_HOUR))⌋
  | none => -250

section

variable [FloatIeee]

/-- The group of a layer. -/
def Layer.group (c : Layer) : CloudGroup :=
  { tp := if c.amount.2 = .OBSCURED then .VERTICAL_VISIBILITY else .CLOUD_LAYER
    amnt := c.amount.2
    heightOrVertVis := heightOf (some c.height)
    convtype := c.convective.2 }

/-- The group of the visibility. -/
def Observation.visibilityGroup (o : Observation) : VisibilityGroup :=
  { vis := if o.visibility = 9999 then ⟨.MORE_THAN, some 10000, .METERS⟩ else ⟨.NONE, some o.visibility, .METERS⟩ }

/-- The group of the weather. -/
def Observation.weatherGroup (o : Observation) : WeatherGroup :=
  { t := .CURRENT, w := o.weather.map fun e => made e.1 e.2.1 e.2.2 }

/-- The group of temperature and dew point. -/
def Observation.temperatureGroup (o : Observation) : TemperatureGroup :=
  ⟨.TEMPERATURE_AND_DEW_POINT, (Degrees.value o.temperature.1 o.temperature.2).temperature,
    Props.dewPoint (some (.value o.dewPoint.1 o.dewPoint.2)), false⟩

/-- The group of the pressure. -/
def Observation.pressureGroup (o : Observation) : PressureGroup :=
  ⟨.OBSERVED_QNH, ⟨some o.pressure, .HECTOPASCAL⟩, false⟩

/-- The groups of layers, temperature and pressure with their words. -/
def Observation.later (o : Observation) : List (Group × List Str) :=
  o.clouds.map (fun c => (.cloud c.group, [c.amount.1 ++ decimal 3 c.height ++ c.convective.1])) ++
  [(.temperature o.temperatureGroup,
    [(Degrees.value o.temperature.1 o.temperature.2).text ++ c!"/" ++ (Degrees.value o.dewPoint.1 o.dewPoint.2).text]),
   (.pressure o.pressureGroup, ['Q' :: decimal 4 o.pressure])]

/-- The groups of an observation with their words. -/
def Observation.items (o : Observation) : List (Group × List Str) :=
  [(.wind o.wind.group, [o.wind.text]), (.visibility o.visibilityGroup, [decimal 4 o.visibility])] ++
  ((if o.weather = [] then [] else
    [(.weather o.weatherGroup, o.weather.map fun e => weatherWritten e.1 e.2.1 e.2.2)]) ++ o.later)

theorem items_words (o : Observation) : o.items.flatMap Prod.snd = o.words := by
  have hc : ∀ (l : List Layer) (f : Layer → Str), l.flatMap (fun a => [f a]) = l.map f := fun l f => by
    induction l <;> simp_all
  unfold Observation.items Observation.later Observation.words
  by_cases h : o.weather = []
  · simp [h, List.flatMap_map, hc]
  · simp [h, List.flatMap_map, hc]

/-! ### The words are read -/

theorem long_not_stop {w : Str} (h : w.length ≠ 3) : w ∉ stops .METAR := by
  intro hm
  simp only [stops, List.mem_cons, List.not_mem_nil, or_false] at hm
  rcases hm with rfl | rfl | rfl <;> exact h rfl

theorem long_not_unfinished {w : Str} (h : 3 ≤ w.length) : ¬ Unfinished [w] := by
  intro hu
  cases hu <;> simp at h

theorem weatherWritten_length (q : Qualifier) (d : Descriptor) (ws : List Weather) :
    (weatherWritten q d ws).length = (qualifierText q).length + (descriptorText d).length + 2 * ws.length := by
  have hw : ∀ w : Weather, (weatherText w).length = 2 := by intro w; cases w <;> rfl
  have : ∀ ws : List Weather, ((ws.map weatherText).flatten).length = 2 * ws.length := by
    intro ws
    induction ws with
    | nil => rfl
    | cons w ws ih => simp only [List.map_cons, List.flatten_cons, List.length_append, hw, ih, List.length_cons]; omega
  simp only [weatherWritten, List.length_append, this]

theorem weather_not_stop (q : Qualifier) (d : Descriptor) (ws : List Weather) :
    weatherWritten q d ws ∉ stops .METAR := by
  by_cases h : (weatherWritten q d ws).length = 3
  · have hl := weatherWritten_length q d ws
    have hq : ∀ q : Qualifier, (qualifierText q).length % 2 = 1 → qualifierText q = c!"-" ∨ qualifierText q = c!"+" := by
      intro q; cases q <;> simp [qualifierText]
    have hd : ∀ d : Descriptor, (descriptorText d).length % 2 = 0 := by intro d; cases d <;> rfl
    have hd := hd d
    intro hm
    simp only [stops, List.mem_cons, List.not_mem_nil, or_false] at hm
    rcases hq q (by omega) with e | e <;> rcases hm with hm | hm | hm <;>
      (unfold weatherWritten at hm; rw [e] at hm; injection hm with h1 h2; exact absurd h1 (by decide))
  · exact long_not_stop h

theorem weather_not_unfinished {es : List WeatherParts} :
    ¬ Unfinished (es.map fun e => weatherWritten e.1 e.2.1 e.2.2) := by
  have key : ∀ (q : Qualifier) (d : Descriptor) (ws : List Weather) (c : Char) (t : Str),
      weatherWritten q d ws = c :: t → c ≠ 'W' ∧ isDigit c = false := by
    intro q d ws c t h
    have hq : ∀ q : Qualifier, qualifierText q = [] ∨ ∃ c ∈ c!"-+RV", ∃ t, qualifierText q = c :: t := by
      intro q; cases q <;> simp [qualifierText]
    have hd : ∀ d : Descriptor, descriptorText d = [] ∨ ∃ c ∈ c!"MPBDSTF", ∃ t, descriptorText d = c :: t := by
      intro q; cases q <;> simp [descriptorText]
    have hw : ∀ w : Weather, ∃ c ∈ c!"/DRSIPGUBFVH", ∃ t, weatherText w = c :: t := by
      intro q; cases q <;> simp [weatherText]
    have fin : ∀ l : Str, (∀ c ∈ l, c ≠ 'W' ∧ isDigit c = false) → ∀ x ∈ l, ∀ t', x :: t' = c :: t →
        c ≠ 'W' ∧ isDigit c = false := by
      intro l hl x hx t' e
      obtain rfl : x = c := (List.cons.inj e).1
      exact hl _ hx
    unfold weatherWritten at h
    rcases hq q with e | ⟨x, hx, t', e⟩
    · rw [e] at h
      rcases hd d with e | ⟨x, hx, t', e⟩
      · rw [e] at h
        cases ws with
        | nil => cases h
        | cons w ws =>
          obtain ⟨x, hx, t', e⟩ := hw w
          rw [List.map_cons, List.flatten_cons, e] at h
          exact fin _ (by decide) x hx _ h
      · rw [e] at h
        exact fin _ (by decide) x hx _ h
    · rw [e] at h
      exact fin _ (by decide) x hx _ h
  intro h
  cases es with
  | nil => cases h
  | cons e es =>
    rw [List.map_cons] at h
    generalize hg : weatherWritten e.1 e.2.1 e.2.2 = w at h
    generalize (es.map fun e => weatherWritten e.1 e.2.1 e.2.2) = l at h
    cases h with
    | shear => exact (key _ _ _ _ _ hg).1 rfl
    | shearAll => exact (key _ _ _ _ _ hg).1 rfl
    | miles1 hd => rw [(key _ _ _ _ _ hg).2] at hd; cases hd
    | miles2 hd _ => rw [(key _ _ _ _ _ hg).2] at hd; cases hd

theorem wind_length (w : WindText) : 5 ≤ w.text.length := by
  have h1 : w.dir.text.length = 3 := by
    cases w.dir <;> simp [WindDirection.text, decimal_length]
  have h2 : ∀ n, 2 ≤ (speedText n).length := by
    intro n
    simp only [speedText]
    split <;> simp [decimal_length]
  obtain ⟨sh, d, sp, g, u⟩ := w
  unfold WindText.text
  simp only at h1
  cases sp with
  | none => simp only [List.length_append, h1, List.length_cons, List.length_nil]; omega
  | some n => have := h2 n; simp only [List.length_append, h1]; omega

theorem degrees_length (b : Bool) (n : Nat) : 2 ≤ (Degrees.value b n).text.length := by
  cases b <;> simp [Degrees.text, decimal_length]

theorem items_written {o : Observation} (h : o.Ok) :
    ∀ x ∈ o.items, Written .METAR x.2 x.1 ∧ ¬ Unfinished x.2 ∧ ∀ w ∈ x.2, w ∉ stops .METAR := by
  have one : ∀ {s : Str} {g : Group}, Written .METAR [s] g → 4 ≤ s.length →
      Written .METAR [s] g ∧ ¬ Unfinished [s] ∧ ∀ w ∈ [s], w ∉ stops .METAR := by
    intro s g hw hl
    refine ⟨hw, long_not_unfinished (by omega), fun w hm => ?_⟩
    rw [List.mem_singleton.mp hm]
    exact long_not_stop (by omega)
  intro x hx
  unfold Observation.items Observation.later at hx
  simp only [List.mem_append, List.mem_cons, List.not_mem_nil, or_false] at hx
  rcases hx with (rfl | rfl) | hx | hx | (rfl | rfl)
  · exact one (.wind (.wind (Or.inl rfl) h.wind)) (by have := wind_length o.wind; omega)
  · refine one (.visibility (Or.inr (Or.inl ⟨_, [], _, _, _, ?_, Or.inl ⟨rfl, rfl, rfl⟩,
      (List.append_nil _).symm, rfl⟩))) (by simp [decimal_length])
    by_cases e : o.visibility = 9999
    · rw [if_pos e, e]
      exact Or.inr (Or.inl ⟨rfl, rfl⟩)
    · rw [if_neg e]
      exact Or.inr (Or.inr ⟨_, by have := h.visibility; omega, rfl, rfl⟩)
  · split at hx
    · cases hx
    · rename_i hne
      rw [List.mem_singleton] at hx
      subst hx
      refine ⟨.weather hne h.weatherCount h.weather, weather_not_unfinished, fun w hw => ?_⟩
      obtain ⟨e, -, rfl⟩ := List.mem_map.mp hw
      exact weather_not_stop _ _ _
  · obtain ⟨c, hc, rfl⟩ := List.mem_map.mp hx
    obtain ⟨h1, h2, h3, h4⟩ := h.clouds c hc
    refine one (.cloud ⟨c.amount.1, c.amount.2, some c.height, c.convective.1, c.convective.2, h1, ?_, h3, h4, rfl,
      rfl⟩) ?_
    · intro n hn
      cases hn
      exact h2
    · have ha : ∀ x ∈ amountNames, 2 ≤ x.1.length := by decide
      have := ha _ h1
      simp only [List.length_append, decimal_length]
      omega
  · refine one (.temperature (d := some (.value o.dewPoint.1 o.dewPoint.2)) rfl h.temperature ?_) ?_
    · intro x hx
      cases hx
      exact h.dewPoint
    · have := degrees_length o.temperature.1 o.temperature.2
      have := degrees_length o.dewPoint.1 o.dewPoint.2
      simp only [List.length_append]
      omega
  · exact one (.pressure rfl (Or.inr (Or.inr (Or.inr ⟨_, h.pressure, rfl, rfl⟩)))) (by simp [decimal_length])

theorem items_chain (o : Observation) : o.items.IsChain Separate := by
  have one : ∀ l : List (Group × List Str), (∀ x ∈ l, several x.1 = false) → l.Pairwise Separate := by
    intro l hl
    induction l with
    | nil => exact .nil
    | cons x l ih =>
      exact .cons (fun _ _ => Or.inr (hl x (List.mem_cons_self ..))) (ih fun y hy => hl y (List.mem_cons_of_mem _ hy))
  have rest := one o.later (by
      intro x hx
      unfold Observation.later at hx
      simp only [List.mem_append, List.mem_map, List.mem_cons, List.not_mem_nil, or_false] at hx
      rcases hx with ⟨c, -, rfl⟩ | rfl | rfl <;> rfl)
  refine List.Pairwise.isChain ?_
  unfold Observation.items
  simp only [List.cons_append, List.nil_append]
  refine .cons ?_ (.cons (fun _ _ => Or.inr rfl) ?_)
  · intro x hx
    refine Or.inl ?_
    unfold Observation.later at hx
    simp only [List.mem_cons, List.mem_append, List.mem_map, List.not_mem_nil, or_false] at hx
    rcases hx with rfl | hx | ⟨c, -, rfl⟩ | rfl | rfl
    · exact Nat.ne_of_beq_eq_false rfl
    · split at hx
      · cases hx
      · rw [List.mem_singleton.mp hx]
        exact Nat.ne_of_beq_eq_false rfl
    all_goals exact Nat.ne_of_beq_eq_false rfl
  · split
    · exact rest
    · refine .cons ?_ rest
      intro x hx
      refine Or.inl ?_
      replace hx : x ∈ o.later := hx
      unfold Observation.later at hx
      simp only [List.mem_cons, List.mem_append, List.mem_map, List.not_mem_nil, or_false] at hx
      rcases hx with ⟨c, -, rfl⟩ | rfl | rfl <;> exact Nat.ne_of_beq_eq_false rfl

/-! ### The summary -/

/-- What the summary says on the wind, the sky, the weather and the temperature of what is observed. -/
structure Observation.Said (o : Observation) (imperial : Bool) (r : CurrentWeather) : Prop where
  windDirection : r.windDirection = match o.wind.dir with
    | .tens n => if o.wind.Calm then -250 else 10 * (n : Int)
    | _ => -250
  isWindVariable : r.isWindVariable = true ↔ o.wind.dir = .varying
  windSpeed : r.windSpeed = perHour imperial o.wind.unit o.wind.speed
  gustSpeed : r.gustSpeed = perHour imperial o.wind.unit o.wind.gust
  visibility : r.visibility = if imperial then ⌊((if o.visibility = 9999 then 10000 else o.visibility : Nat) : Rat) /
      (1609344 / 1000)⌋ else ((if o.visibility = 9999 then 10000 else o.visibility : Nat) : Int)
  weather : r.weather = o.weather.flatMap fun e => phenomenonCodes e.1 e.2.1 e.2.2
  isStormClouds : r.isStormClouds = true ↔ ∃ c ∈ o.clouds, c.convective.2 = .CUMULONIMBUS
  cloud : r.cloud = greatest (fromLastPartly (o.clouds.filterMap fun c => coverOfAmount c.amount.2))
  airTemperature : r.airTemperature = if imperial then (9 * signedDegrees o.temperature + 160).tdiv 5 else
    signedDegrees o.temperature

theorem lastOf_unique {α : Type} {f : Group → Option α} {gs : List Group} {g0 : Group}
    (h : ∀ g ∈ gs, f g = none ∨ g = g0) (h0 : g0 ∈ gs) : lastOf f gs = f g0 := by
  have key : ∀ l : List Group, (∀ g ∈ l, f g = none ∨ g = g0) → g0 ∈ l → l.findSome? f = f g0 := by
    intro l
    induction l with
    | nil => intro _ h0; cases h0
    | cons g l ih =>
      intro h h0
      rw [List.findSome?_cons]
      cases e : f g with
      | some v =>
        rcases h g (List.mem_cons_self ..) with e' | rfl
        · rw [e] at e'; cases e'
        · exact e.symm
      | none =>
        by_cases hm : g0 ∈ l
        · exact ih (fun x hx => h x (List.mem_cons_of_mem _ hx)) hm
        · rcases List.mem_cons.mp h0 with rfl | h0
          · rw [e]
            refine List.findSome?_eq_none_iff.mpr fun x hx => ?_
            rcases h x (List.mem_cons_of_mem _ hx) with h | rfl
            · exact h
            · exact absurd hx hm
          · exact absurd h0 hm
  exact key _ (fun g hg => h g (List.mem_reverse.mp hg)) (List.mem_reverse.mpr h0)

/-- Groups which say nothing on the weather. -/
def Silent (g : Group) : Prop :=
  (∃ k, k ≠ .CAVOK ∧ g = .keyword ⟨k⟩) ∨ (∃ l, g = .location l) ∨ ∃ t, g = .reportTime t

theorem header_silent {hs : List (Str × Group)} (h : HeaderText .METAR hs) : ∀ x ∈ hs, Silent x.2 := by
  cases h with
  | metar hk hc _ _ _ _ =>
    simp only [List.mem_cons, List.not_mem_nil, or_false] at hk hc
    intro x hx
    simp only [List.mem_append, List.mem_cons, List.not_mem_nil, or_false, List.cons_append] at hx
    rcases hx with rfl | hx | rfl | rfl
    · rcases hk with rfl | rfl <;> exact Or.inl ⟨_, by decide, rfl⟩
    · rcases hc with rfl | rfl
      · cases hx
      · rw [List.mem_singleton.mp hx]
        exact Or.inl ⟨_, by decide, rfl⟩
    · exact Or.inr (Or.inl ⟨_, rfl⟩)
    · exact Or.inr (Or.inr ⟨_, rfl⟩)

theorem Silent.says {g : Group} (h : Silent g) : isTrend g = false ∧ surfaceWind g = none ∧ prevailing g = none ∧
    presentWeather g = none ∧ coverOf g = none ∧ temperatureGroupOf g = none ∧ qnhOf g = none ∧
    (∀ c, g ≠ .cloud c) ∧ g ≠ .keyword ⟨.CAVOK⟩ := by
  rcases h with ⟨k, hk, rfl⟩ | ⟨l, rfl⟩ | ⟨t, rfl⟩
  · refine ⟨rfl, rfl, rfl, rfl, if_neg hk, rfl, rfl, fun c e => (by cases e), fun e => hk ?_⟩
    injection e with e
    injection e
  · exact ⟨rfl, rfl, rfl, rfl, rfl, rfl, rfl, fun c e => (by cases e), fun e => (by cases e)⟩
  · exact ⟨rfl, rfl, rfl, rfl, rfl, rfl, rfl, fun c e => (by cases e), fun e => (by cases e)⟩

/-- The kinds of the groups of an observation. -/
theorem items_kinds {o : Observation} {g : Group} (hg : g ∈ o.items.map Prod.fst) :
    g = .wind o.wind.group ∨ g = .visibility o.visibilityGroup ∨ g = .weather o.weatherGroup ∨
    (∃ c ∈ o.clouds, g = .cloud c.group) ∨ g = .temperature o.temperatureGroup ∨ g = .pressure o.pressureGroup := by
  obtain ⟨x, hx, rfl⟩ := List.mem_map.mp hg
  unfold Observation.items Observation.later at hx
  simp only [List.mem_append, List.mem_cons, List.not_mem_nil, or_false, List.mem_map] at hx
  rcases hx with (rfl | rfl) | hx | ⟨c, hc, rfl⟩ | (rfl | rfl)
  · exact Or.inl rfl
  · exact Or.inr (Or.inl rfl)
  · split at hx
    · cases hx
    · rw [List.mem_singleton.mp hx]
      exact Or.inr (Or.inr (Or.inl rfl))
  · exact Or.inr (Or.inr (Or.inr (Or.inl ⟨c, hc, rfl⟩)))
  · exact Or.inr (Or.inr (Or.inr (Or.inr (Or.inl rfl))))
  · exact Or.inr (Or.inr (Or.inr (Or.inr (Or.inr rfl))))

/-- What may follow: nothing, or a trend with any groups which are written after it. -/
structure Trends (ex : List (Group × List Str)) : Prop where
  written : ∀ x ∈ ex, Written .METAR x.2 x.1 ∧ ¬ Unfinished x.2 ∧ ∀ w ∈ x.2, w ∉ stops .METAR
  separate : ex.IsChain Separate
  trend : ∀ x ∈ ex.head?, isTrend x.1 = true

theorem items_last (o : Observation) :
    o.items.getLast? = some (.pressure o.pressureGroup, ['Q' :: decimal 4 o.pressure]) := by
  unfold Observation.items Observation.later
  rw [List.getLast?_append, List.getLast?_append, List.getLast?_append]
  rfl

/-- The groups of a report which is written. -/
theorem written_gives {o : Observation} {hs : List (Str × Group)} {ex : List (Group × List Str)} {report : Str}
    (ho : o.Ok) (hh : HeaderText .METAR hs) (hx : Trends ex)
    (hg : Groups report (hs.map Prod.fst ++ (o.words ++ ex.flatMap Prod.snd)))
    (hl : (hs.map Prod.fst ++ (o.words ++ ex.flatMap Prod.snd)).length < 200) :
    ∃ gs, Gives report .METAR gs ∧
      beforeTrend (gs.map (·.group)) = hs.map Prod.snd ++ o.items.map Prod.fst := by
  rw [← items_words, ← List.flatMap_append] at hg hl
  have hc : (o.items ++ ex).IsChain Separate := by
    refine List.isChain_append.mpr ⟨items_chain o, hx.separate, ?_⟩
    intro x hx y hy
    rw [items_last] at hx
    cases hx
    exact Or.inr rfl
  obtain ⟨r, hr, ht, he, e⟩ := C70_layout hh (by unfold Observation.items; simp) (fun x hm =>
    (List.mem_append.mp hm).elim (items_written ho x) (hx.written x)) hc hg hl
  refine ⟨r.groups, ⟨r, hr, ht, he, rfl⟩, ?_⟩
  have e' : r.groups.map (·.group) = (hs.map Prod.snd ++ o.items.map Prod.fst) ++ ex.map Prod.fst := by
    rw [e, List.map_append, List.map_map, List.map_map, List.map_append, ← List.append_assoc]
    rfl
  have hn : ∀ g ∈ hs.map Prod.snd ++ o.items.map Prod.fst, (!isTrend g) = true := by
    intro g hg
    rcases List.mem_append.mp hg with hg | hg
    · obtain ⟨x, hx, rfl⟩ := List.mem_map.mp hg
      simp [(header_silent hh x hx).says.1]
    · rcases items_kinds hg with rfl | rfl | rfl | ⟨c, -, rfl⟩ | rfl | rfl <;> rfl
  rw [e']
  unfold beforeTrend
  rw [List.takeWhile_append_of_pos hn]
  cases ex with
  | nil => simp
  | cons x ex =>
    rw [List.map_cons, List.takeWhile_cons_of_neg (by simp [hx.trend x rfl]), List.append_nil]

theorem mem_wind (o : Observation) : .wind o.wind.group ∈ o.items.map Prod.fst := by
  unfold Observation.items
  simp

theorem mem_visibility (o : Observation) : .visibility o.visibilityGroup ∈ o.items.map Prod.fst := by
  unfold Observation.items
  simp

theorem mem_cloud {o : Observation} {c : Layer} (h : c ∈ o.clouds) : .cloud c.group ∈ o.items.map Prod.fst := by
  have : (Group.cloud c.group, [c.amount.1 ++ decimal 3 c.height ++ c.convective.1]) ∈ o.items := by
    unfold Observation.items Observation.later
    exact List.mem_append_right _ (List.mem_append_right _ (List.mem_append_left _ (List.mem_map.mpr ⟨c, h, rfl⟩)))
  exact List.mem_map.mpr ⟨_, this, rfl⟩

theorem mem_temperature (o : Observation) : .temperature o.temperatureGroup ∈ o.items.map Prod.fst := by
  unfold Observation.items Observation.later
  simp

theorem mem_pressure (o : Observation) : .pressure o.pressureGroup ∈ o.items.map Prod.fst := by
  unfold Observation.items Observation.later
  simp

/-- What is told by the layers alone, or by the weather alone. -/
theorem filter_items {α : Type} (f : Group → Option α) (o : Observation) (h1 : f (.wind o.wind.group) = none)
    (h2 : f (.visibility o.visibilityGroup) = none) (h3 : f (.temperature o.temperatureGroup) = none)
    (h4 : f (.pressure o.pressureGroup) = none) :
    (o.items.map Prod.fst).filterMap f = (if o.weather = [] then [] else (f (.weather o.weatherGroup)).toList) ++
      o.clouds.filterMap fun c => f (.cloud c.group) := by
  unfold Observation.items Observation.later
  simp only [List.map_append, List.map_cons, List.map_nil, List.map_map, List.filterMap_append, List.filterMap_cons, h1,
    h2, h3, h4, List.filterMap_nil, List.nil_append, List.append_nil, List.filterMap_map]
  congr 1
  by_cases hw : o.weather = []
  · simp [hw]
  · simp only [if_neg hw, List.filterMap_cons, List.filterMap_nil, Function.comp]
    cases f (.weather o.weatherGroup) <;> rfl

theorem surface_group {w : WindText} (h : w.shear = none) : surfaceWind (.wind w.group) = some w.group := by
  unfold WindText.group surfaceWind
  by_cases hc : w.Calm
  · simp [hc]
  · simp [hc, h]

theorem speed_said (imperial : Bool) {n : Option Nat} (u : SpeedUnit) (h : ∀ x ∈ n, x < 1000) :
    orNone (speedIn imperial (WindText.speedOf n u)) = perHour imperial u n := by
  cases n with
  | none => cases imperial <;> rfl
  | some n =>
    rw [WindText.speedOf, C96_speed rfl (h n rfl)]
    rfl

theorem phenomena_said {es : List WeatherParts}
    (h : ∀ e ∈ es, WeatherWord (weatherWritten e.1 e.2.1 e.2.2) .METAR e.1 e.2.1 e.2.2 ∧ e.1 ≠ .RECENT) :
    ((es.map fun e => made e.1 e.2.1 e.2.2).flatMap fun p => phenomenonCodes p.qualifier p.descriptor p.weather) =
      es.flatMap fun e => phenomenonCodes e.1 e.2.1 e.2.2 := by
  induction es with
  | nil => rfl
  | cons e es ih =>
    rw [List.map_cons, List.flatMap_cons, List.flatMap_cons, ih fun x hx => h x (List.mem_cons_of_mem _ hx)]
    have hl : e.2.2.length ≤ 3 := by
      rcases (h e (List.mem_cons_self ..)).1.2 with ⟨-, -, -, hw⟩ | ⟨-, ha⟩
      · rw [hw]; decide
      · exact (allowed_length ha).1
    have h1 : (made e.1 e.2.1 e.2.2).qualifier = e.1 := WeatherPhenomena.pack_qualifier ..
    have h2 : (made e.1 e.2.1 e.2.2).descriptor = e.2.1 := WeatherPhenomena.pack_descriptor ..
    have h3 : (made e.1 e.2.1 e.2.2).weather = e.2.2 :=
      (WeatherPhenomena.pack_weather ..).trans (List.take_of_length_le hl)
    rw [h1, h2, h3]

theorem said_of {o : Observation} {hs : List (Str × Group)} {report taf : Str} {gs : List GroupInfo}
    {y m d : Int} {imperial : Bool} {r : CurrentWeather} (ho : o.Ok) (hh : HeaderText .METAR hs)
    (hgs : Gives report .METAR gs)
    (all : beforeTrend (gs.map (·.group)) = hs.map Prod.snd ++ o.items.map Prod.fst)
    (h : getCurrentWeather report taf y m d imperial = .ok r) : o.Said imperial r := by
  obtain ⟨hk, hm⟩ := C87_metar hgs h
  have silent : ∀ g ∈ hs.map Prod.snd, Silent g := by
    intro g hg
    obtain ⟨x, hx, rfl⟩ := List.mem_map.mp hg
    exact header_silent hh x hx
  rw [all] at hk hm
  have last : ∀ {α : Type} {f : Group → Option α} {g0 : Group}, (∀ g, Silent g → f g = none) →
      (∀ g ∈ o.items.map Prod.fst, f g = none ∨ g = g0) → g0 ∈ o.items.map Prod.fst →
      lastOf f (hs.map Prod.snd ++ o.items.map Prod.fst) = f g0 := by
    intro α f g0 h1 h2 h3
    refine lastOf_unique (fun g hg => ?_) (List.mem_append_right _ h3)
    rcases List.mem_append.mp hg with hg | hg
    · exact Or.inl (h1 g (silent g hg))
    · exact h2 g hg
  have wind : ∀ {α : Type} (f : WindGroup → Option α),
      lastOf (fun g => (surfaceWind g).bind f) (hs.map Prod.snd ++ o.items.map Prod.fst) = f o.wind.group := by
    intro α f
    rw [last (g0 := .wind o.wind.group) (fun g hg => by simp only [hg.says.2.1, Option.bind_none]) ?_ (mem_wind o),
      surface_group ho.noShear]
    · rfl
    · intro g hg
      rcases items_kinds hg with rfl | rfl | rfl | ⟨c, -, rfl⟩ | rfl | rfl
      · exact Or.inr rfl
      all_goals exact Or.inl rfl
  have hw := ho.wind
  obtain ⟨-, hdir, hsp, hgu, -⟩ := hw
  have nosh := ho.noShear
  constructor
  · rw [hk.windDirection, wind]
    unfold WindText.group
    by_cases hc : o.wind.Calm
    · rw [if_pos hc, hc.2.1]
      simp [hc]
      rfl
    · rw [if_neg hc]
      simp only [if_neg hc]
      cases o.wind.dir <;> rfl
  · rw [hk.isWindVariable]
    constructor
    · rintro ⟨g, hg, w, hgw, hv⟩
      rcases List.mem_append.mp hg with hg | hg
      · rw [(silent g hg).says.2.1] at hgw; cases hgw
      · rcases items_kinds hg with rfl | rfl | rfl | ⟨c, -, rfl⟩ | rfl | rfl
        · rw [surface_group nosh] at hgw
          obtain rfl := Option.some.inj hgw
          unfold WindText.group at hv
          split at hv
          · cases hv
          · simp only at hv
            cases hd : o.wind.dir <;> rw [hd] at hv <;> first | rfl | cases hv
        all_goals cases hgw
    · intro hv
      refine ⟨_, List.mem_append_right _ (mem_wind o), _, surface_group nosh, ?_⟩
      unfold WindText.group
      rw [if_neg fun hc => by rw [hc.2.1] at hv; cases hv]
      simp only [hv]
      rfl
  · rw [hk.windSpeed, wind, ← speed_said imperial _ hsp]
    unfold WindText.group
    split <;> rfl
  · rw [hk.gustSpeed, wind, ← speed_said imperial _ hgu]
    unfold WindText.group
    split
    · rename_i hc
      rw [hc.2.2.2]
      rfl
    · rfl
  · rw [hk.visibility, last (g0 := .visibility o.visibilityGroup) ?_ ?_ (mem_visibility o)]
    · have hv := ho.visibility
      have hd : o.visibilityGroup.visibility.dist = some (if o.visibility = 9999 then 10000 else o.visibility) := by
        show (if o.visibility = 9999 then _ else _ : Distance).dist = _
        split <;> rfl
      have hu : o.visibilityGroup.visibility.distUnit = .METERS := by
        show (if o.visibility = 9999 then _ else _ : Distance).distUnit = _
        split <;> rfl
      have hn : (if o.visibility = 9999 then 10000 else o.visibility) ≤ 10000 := by split <;> omega
      show orNone (distanceIn imperial o.visibilityGroup.visibility) = _
      cases imperial with
      | false => rw [C96_metres hd hn hu]; rfl
      | true => rw [C96_metres_to_miles hd hn hu]; rfl
    · intro g hg
      unfold visibilityTold
      rw [if_neg hg.says.2.2.2.2.2.2.2.2, hg.says.2.2.1]
      rfl
    · intro g hg
      rcases items_kinds hg with rfl | rfl | rfl | ⟨c, -, rfl⟩ | rfl | rfl
      · exact Or.inl rfl
      · exact Or.inr rfl
      all_goals exact Or.inl rfl
  · have hn : (hs.map Prod.snd).filterMap presentWeather = [] :=
      List.filterMap_eq_nil_iff.mpr fun g hg => (silent g hg).says.2.2.2.1
    rw [hk.weather, List.filterMap_append, hn, List.nil_append, ← phenomena_said ho.weather]
    rw [filter_items presentWeather o rfl rfl rfl rfl]
    have hc : (o.clouds.filterMap fun c => presentWeather (.cloud c.group)) = [] :=
      List.filterMap_eq_nil_iff.mpr fun _ _ => rfl
    rw [hc, List.append_nil]
    split
    · rename_i hw
      rw [hw]
      rfl
    · show List.flatMap _ [o.weatherGroup] = _
      rw [List.flatMap_singleton]
      rfl
  · rw [hk.isStormClouds]
    constructor
    · rintro ⟨c, hc, hv⟩
      rcases List.mem_append.mp hc with hc | hc
      · exact absurd rfl ((silent _ hc).says.2.2.2.2.2.2.2.1 c)
      · rcases items_kinds hc with e | e | e | ⟨l, hl, e⟩ | e | e
        · cases e
        · cases e
        · cases e
        · obtain rfl := Group.cloud.inj e
          exact ⟨l, hl, hv⟩
        · cases e
        · cases e
    · rintro ⟨c, hc, hv⟩
      exact ⟨c.group, List.mem_append_right _ (mem_cloud hc), hv⟩
  · have hn : (hs.map Prod.snd).filterMap coverOf = [] :=
      List.filterMap_eq_nil_iff.mpr fun g hg => (silent g hg).says.2.2.2.2.1
    rw [hk.cloud]
    unfold covers
    rw [List.filterMap_append, hn, List.nil_append, filter_items coverOf o rfl rfl rfl rfl]
    have : (if o.weather = [] then [] else (coverOf (.weather o.weatherGroup)).toList) = [] := by split <;> rfl
    rw [this, List.nil_append]
    rfl
  · rw [hm.airTemperature, last (g0 := .temperature o.temperatureGroup)
      (fun g hg => by simp only [hg.says.2.2.2.2.2.1, Option.bind_none]) ?_ (mem_temperature o)]
    · have ht := ho.temperature
      have hd : tenths (Degrees.value o.temperature.1 o.temperature.2).temperature =
          some (10 * signedDegrees o.temperature) := by
        unfold signedDegrees
        cases o.temperature.1 <;> rfl
      have hr : temperatureGroupOf (.temperature o.temperatureGroup) = some o.temperatureGroup := by
        refine if_pos ?_
        unfold Observation.temperatureGroup
        cases o.temperature.1 <;> rfl
      have hb : |10 * signedDegrees o.temperature| ≤ 1000 := by
        unfold signedDegrees
        rw [abs_le]
        split <;> omega
      rw [hr]
      show orNone (temperatureIn imperial (Degrees.value o.temperature.1 o.temperature.2).temperature) = _
      cases imperial with
      | false =>
        rw [C96_celsius hd hb, Int.mul_tdiv_cancel_left _ (by norm_num)]
        rfl
      | true =>
        rw [C96_fahrenheit hd hb, show 9 * (10 * signedDegrees o.temperature) + 1600 =
          10 * (9 * signedDegrees o.temperature + 160) by ring, show (50 : Int) = 10 * 5 by rfl,
          Int.mul_tdiv_mul_of_pos _ _ (by norm_num)]
        rfl
    · intro g hg
      rcases items_kinds hg with rfl | rfl | rfl | ⟨c, -, rfl⟩ | rfl | rfl
      case inr.inr.inr.inr.inl => exact Or.inr rfl
      all_goals exact Or.inl rfl

/-- C149: the summary of a METAR report which is written says what was written, whatever its header, the blanks
between the words, the trends after it, the TAF report and the date. -/
theorem C149_said {o : Observation} {hs : List (Str × Group)} {ex : List (Group × List Str)} {report taf : Str}
    {y m d : Int} {imperial : Bool} {r : CurrentWeather} (ho : o.Ok) (hh : HeaderText .METAR hs) (hx : Trends ex)
    (hg : Groups report (hs.map Prod.fst ++ (o.words ++ ex.flatMap Prod.snd)))
    (hl : (hs.map Prod.fst ++ (o.words ++ ex.flatMap Prod.snd)).length < 200)
    (h : getCurrentWeather report taf y m d imperial = .ok r) : o.Said imperial r := by
  obtain ⟨gs, hgs, all⟩ := written_gives ho hh hx hg hl
  exact said_of ho hh hgs all h

theorem pressure_of {o : Observation} {hs : List (Str × Group)} {report taf : Str} {gs : List GroupInfo}
    {y m d : Int} {r : CurrentWeather} (hh : HeaderText .METAR hs) (hgs : Gives report .METAR gs)
    (all : beforeTrend (gs.map (·.group)) = hs.map Prod.snd ++ o.items.map Prod.fst)
    (h : getCurrentWeather report taf y m d false = .ok r) : r.atmosphericPressure = o.pressure := by
  obtain ⟨-, hm⟩ := C87_metar hgs h
  have silent : ∀ g ∈ hs.map Prod.snd, Silent g := by
    intro g hg
    obtain ⟨x, hx, rfl⟩ := List.mem_map.mp hg
    exact header_silent hh x hx
  rw [hm.atmosphericPressure, all, lastOf_unique (g0 := .pressure o.pressureGroup) ?_
    (List.mem_append_right _ (mem_pressure o))]
  · show orNone (pressureIn false ⟨some ((o.pressure : Nat) : Rat), .HECTOPASCAL⟩) = _
    rw [C97_hectopascals]
    rfl
  · intro g hg
    rcases List.mem_append.mp hg with hg | hg
    · exact Or.inl (by simp only [(silent g hg).says.2.2.2.2.2.2.1, Option.bind_none])
    · rcases items_kinds hg with rfl | rfl | rfl | ⟨c, -, rfl⟩ | rfl | rfl
      · exact Or.inl rfl
      · exact Or.inl rfl
      · exact Or.inl rfl
      · exact Or.inl rfl
      · exact Or.inl rfl
      · exact Or.inr rfl

/-- C149: the pressure of the summary, in hectopascals, is the number written. -/
theorem C149_pressure {o : Observation} {hs : List (Str × Group)} {ex : List (Group × List Str)} {report taf : Str}
    {y m d : Int} {r : CurrentWeather} (ho : o.Ok) (hh : HeaderText .METAR hs) (hx : Trends ex)
    (hg : Groups report (hs.map Prod.fst ++ (o.words ++ ex.flatMap Prod.snd)))
    (hl : (hs.map Prod.fst ++ (o.words ++ ex.flatMap Prod.snd)).length < 200)
    (h : getCurrentWeather report taf y m d false = .ok r) : r.atmosphericPressure = o.pressure := by
  obtain ⟨gs, hgs, all⟩ := written_gives ho hh hx hg hl
  exact pressure_of hh hgs all h

/-- Wind from 240 degrees with 12 knots and gusts of 25, visibility 3500 metres, heavy rain with thunderstorm and
mist, scattered clouds in 1500 feet and broken cumulonimbus in 3000 feet, 18 degrees, dew point 17 degrees below zero
and 1009 hectopascals. -/
def stormy : Observation where
  wind := ⟨none, .tens 24, some 12, some 25, .KNOTS⟩
  visibility := 3500
  weather := [(.HEAVY, .THUNDERSTORM, [.RAIN]), (.NONE, .NONE, [.MIST])]
  clouds := [⟨(c!"SCT", .SCATTERED), 15, ([], .NONE)⟩, ⟨(c!"BKN", .BROKEN), 30, (c!"CB", .CUMULONIMBUS)⟩]
  temperature := (false, 18)
  dewPoint := (true, 17)
  pressure := 1009

/-- The words of this observation. -/
example : stormy.words = [c!"24012G25KT", c!"3500", c!"+TSRA", c!"BR", c!"SCT015", c!"BKN030CB", c!"18/M17", c!"Q1009"] := by
  decide +kernel

/-- It can be written. -/
theorem stormy_ok : stormy.Ok where
  wind := ⟨fun h hh => (by cases hh), (by show (24 : Nat) < 100; norm_num), fun n hn => (by cases hn; norm_num),
    fun n hn => (by cases hn; norm_num), fun e => (by cases e)⟩
  noShear := rfl
  visibility := by decide
  weather := by
    intro e he
    rcases List.mem_cons.mp he with rfl | he
    · refine ⟨⟨rfl, Or.inr ⟨Or.inl rfl, .intensity rfl (by decide) ⟨by decide, by decide, by decide, by decide, by decide,
        nofun, nofun⟩⟩⟩, by decide⟩
    · rw [List.mem_singleton.mp he]
      exact ⟨⟨rfl, Or.inr ⟨Or.inl rfl, .plain (.single _ (by decide))⟩⟩, by decide⟩
  weatherCount := by decide
  clouds := by decide
  temperature := by decide
  dewPoint := by decide
  pressure := by decide

/-- The summary of the report with these words. -/
example {taf : Str} {y m d : Int} {r : CurrentWeather}
    (h : getCurrentWeather c!"METAR EDDF 171250Z 24012G25KT 3500 +TSRA BR SCT015 BKN030CB 18/M17 Q1009 TEMPO 33040KT=" taf y m d false =
      .ok r) :
    r.windDirection = 240 ∧ r.windSpeed = 22 ∧ r.gustSpeed = 46 ∧ r.visibility = 3500 ∧ r.isStormClouds = true ∧
      r.cloud = .MOSTLY_CLOUDY ∧ r.airTemperature = 18 ∧ r.atmosphericPressure = 1009 := by
  have hh : HeaderText .METAR [(c!"METAR", .keyword ⟨.METAR⟩), (c!"EDDF", .location ⟨c!"EDDF"⟩),
      (timeText 17 12 50, .reportTime ⟨⟨some 17, 12, 50⟩⟩)] :=
    .metar (k := (c!"METAR", .keyword ⟨.METAR⟩)) (cor := []) (by simp) (by simp)
      ⟨'E', 'D', 'D', 'F', rfl, by unfold Capital; decide, Or.inl (by unfold Capital; decide),
        Or.inl (by unfold Capital; decide), Or.inl (by unfold Capital; decide)⟩ (by norm_num) (by norm_num) (by norm_num)
  have hg := groups_tokens c!"METAR EDDF 171250Z 24012G25KT 3500 +TSRA BR SCT015 BKN030CB 18/M17 Q1009 TEMPO 33040KT="
  have hw : tokens c!"METAR EDDF 171250Z 24012G25KT 3500 +TSRA BR SCT015 BKN030CB 18/M17 Q1009 TEMPO 33040KT=" =
    [c!"METAR", c!"EDDF", timeText 17 12 50] ++ (stormy.words ++ [c!"TEMPO", c!"33040KT"]) := by decide +kernel
  rw [hw] at hg
  have hx : Trends [(.trend (trendMeaning [.tempo]), [c!"TEMPO"]),
      (.wind (WindText.group ⟨none, .tens 33, some 40, none, .KNOTS⟩), [c!"33040KT"])] := by
    refine ⟨?_, .cons_cons (Or.inl (Nat.ne_of_beq_eq_false rfl)) (.singleton _), fun x hx => by cases hx; rfl⟩
    intro x hx
    rcases List.mem_cons.mp hx with rfl | hx
    · exact ⟨.trend (ws := [.tempo]) (.one trivial (Or.inl rfl)), long_not_unfinished (by decide), by decide⟩
    · rw [List.mem_singleton.mp hx]
      refine ⟨.wind (.wind (w := ⟨none, .tens 33, some 40, none, .KNOTS⟩) (Or.inl rfl) ⟨fun h hh => (by cases hh),
        (by show (33 : Nat) < 100; norm_num), fun n hn => (by cases hn; norm_num), fun n hn => (by cases hn),
        fun e => (by cases e)⟩), long_not_unfinished (by decide), by decide⟩
  have hs := C149_said stormy_ok hh hx hg (by decide) h
  refine ⟨hs.windDirection.trans rfl, hs.windSpeed.trans ?_, hs.gustSpeed.trans ?_, hs.visibility.trans rfl,
    hs.isStormClouds.mpr ⟨_, List.mem_cons_of_mem _ (List.mem_cons_self ..), rfl⟩, hs.cloud.trans rfl,
    hs.airTemperature.trans rfl, C149_pressure stormy_ok hh hx hg (by decide) h⟩
  · norm_num [perHour, stormy, mpsPer]
  · norm_num [perHour, stormy, mpsPer]

end

end Metaf.Props
