import Verif.Props.Division
import Verif.Props.Reparse
import Verif.Proofs.Words

/-!
C70: a report which is written as a header and a sequence of groups is decoded into these groups.
-/

set_option linter.unusedSectionVars false

namespace Metaf.Props

open Metaf Metaf.Spec

variable [FloatIeee]

/-! ### Specification -/

/-- A code of a location: a capital letter and three capital letters or digits. -/
def LocationWord (s : Str) : Prop :=
  ∃ a b c d, s = [a, b, c, d] ∧ Capital a ∧ (Capital b ∨ Digit b) ∧ (Capital c ∨ Digit c) ∧ (Capital d ∨ Digit d)

/-- The time of a report: day, hour and minute. -/
def timeText (d h m : Nat) : Str := decimal 2 d ++ decimal 2 h ++ decimal 2 m ++ c!"Z"

/-- The header of a report with what each word says. -/
inductive HeaderText : ReportType → List (Str × Group) → Prop
  | metar {k cor l d h m} :
      k ∈ [(c!"METAR", .keyword ⟨.METAR⟩), (c!"SPECI", .keyword ⟨.SPECI⟩)] →
      cor ∈ [[], [(c!"COR", .keyword ⟨.COR⟩)]] → LocationWord l → d < 100 → h < 100 → m < 100 →
      HeaderText .METAR (k :: cor ++ [(l, .location ⟨l⟩), (timeText d h m, .reportTime ⟨⟨some d, h, m⟩⟩)])
  | taf {cor time l d h d' h'} :
      cor ∈ [[], [(c!"COR", .keyword ⟨.COR⟩)], [(c!"AMD", .keyword ⟨.AMD⟩)]] → LocationWord l →
      (time = [] ∨ ∃ d h m, d < 100 ∧ h < 100 ∧ m < 100 ∧
        time = [(timeText d h m, .reportTime ⟨⟨some d, h, m⟩⟩)]) →
      d < 100 → h < 100 → d' < 100 → h' < 100 →
      HeaderText .TAF ((c!"TAF", .keyword ⟨.TAF⟩) :: cor ++ [(l, .location ⟨l⟩)] ++ time ++
        [((TrendWord.span d h d' h').text, .trend (trendMeaning [.span d h d' h']))])

/-- Kinds of groups which may be made of several words in the body of a report: trends, wind, weather,
and minimum and maximum temperatures. -/
def several : Group → Bool
  | .trend _ | .wind _ | .weather _ | .minMaxTemperature _ => true
  | _ => false

/-- Groups which are not confused when one is written after the other: of different kinds, or of a kind
that is written in one word. -/
def Separate (a b : Group × List Str) : Prop := a.1.index ≠ b.1.index ∨ several a.1 = false

/-! ### Header -/

theorem header_iff {ty : ReportType} {hs : List (Str × Group)} : HeaderText ty hs ↔ Header ty hs := by
  have loc : ∀ {l : Str} {L : Group}, recognise 1 l .HEADER {} = .ok (some L) ↔ LocationWord l ∧ L = .location ⟨l⟩ := by
    intro l L
    constructor
    · intro h
      obtain ⟨⟨x⟩, hx, rfl⟩ := map_some h
      obtain ⟨-, rfl, hl⟩ := (C49_location _ _ _).mp hx
      exact ⟨hl, rfl⟩
    · rintro ⟨hl, rfl⟩
      simp [recognise, (C49_location l .HEADER ⟨l⟩).mpr ⟨rfl, rfl, hl⟩]
  have time : ∀ {t : Str} {T : Group}, recognise 2 t .HEADER {} = .ok (some T) ↔
      ∃ d h m, d < 100 ∧ h < 100 ∧ m < 100 ∧ t = timeText d h m ∧ T = .reportTime ⟨⟨some d, h, m⟩⟩ := by
    intro t T
    constructor
    · intro hr
      obtain ⟨⟨x⟩, hx, rfl⟩ := map_some hr
      obtain ⟨-, d, h, m, hd, hh, hm, rfl, e⟩ := (C49_time _ _ _).mp hx
      simp only at e
      subst e
      exact ⟨d, h, m, hd, hh, hm, rfl, rfl⟩
    · rintro ⟨d, h, m, hd, hh, hm, rfl, rfl⟩
      simp only [recognise, (C49_time (timeText d h m) .HEADER ⟨⟨some d, h, m⟩⟩).mpr
        ⟨rfl, d, h, m, hd, hh, hm, rfl, rfl⟩]
      rfl
  have span : ∀ {s : Str} {S : Group}, recognise 3 s .HEADER {} = .ok (some S) ↔
      ∃ d h d' h', d < 100 ∧ h < 100 ∧ d' < 100 ∧ h' < 100 ∧ s = (TrendWord.span d h d' h').text ∧
        S = .trend (trendMeaning [.span d h d' h']) := by
    intro s S
    constructor
    · intro hr
      obtain ⟨x, hx, rfl⟩ := map_some hr
      obtain ⟨w, hok, ha, rfl, rfl⟩ := (C45_parse _ _ _).mp hx
      cases w with
      | span d h d' h' => exact ⟨d, h, d', h', hok.1, hok.2.1, hok.2.2.1, hok.2.2.2, rfl, rfl⟩
      | becmg | tempo | inter => rcases ha with ha | ha <;> cases ha
      | _ => cases ha
    · rintro ⟨d, h, d', h', h1, h2, h3, h4, rfl, rfl⟩
      simp only [recognise, parse_word (w := .span d h d' h') (p := .HEADER) ⟨h1, h2, h3, h4⟩ (Or.inr rfl)]
      rfl
  constructor
  · rintro (⟨hk, hc, hl, hd, hh, hm⟩ | ⟨hc, hl, ht, h1, h2, h3, h4⟩)
    · exact .metar hk hc (loc.mpr ⟨hl, rfl⟩) (time.mpr ⟨_, _, _, hd, hh, hm, rfl, rfl⟩)
    · refine .taf hc (loc.mpr ⟨hl, rfl⟩) ?_ (span.mpr ⟨_, _, _, _, h1, h2, h3, h4, rfl, rfl⟩)
      rcases ht with rfl | ⟨d, h, m, hd, hh, hm, rfl⟩
      · exact Or.inl rfl
      · exact Or.inr ⟨_, _, rfl, time.mpr ⟨_, _, _, hd, hh, hm, rfl, rfl⟩⟩
  · rintro (⟨hk, hc, hl, ht⟩ | ⟨hc, hl, ht, hs⟩)
    · obtain ⟨hl', rfl⟩ := loc.mp hl
      obtain ⟨d, h, m, hd, hh, hm, rfl, rfl⟩ := time.mp ht
      exact .metar hk hc hl' hd hh hm
    · obtain ⟨hl', rfl⟩ := loc.mp hl
      obtain ⟨d, h, d', h', h1, h2, h3, h4, rfl, rfl⟩ := span.mp hs
      refine .taf hc hl' ?_ h1 h2 h3 h4
      rcases ht with rfl | ⟨t, T, rfl, ht⟩
      · exact Or.inl rfl
      · obtain ⟨d, h, m, hd, hh, hm, rfl, rfl⟩ := time.mp ht
        exact Or.inr ⟨d, h, m, hd, hh, hm, rfl⟩

/-! ### Groups which are not confused -/

theorem first_kind {p : ReportPart} {md : ReportMetadata} {ws : List Str} {g : Group} (h : Reads p md ws g) :
    ∃ w rest g0, ws = w :: rest ∧ recognise g.index w p md = .ok (some g0) := by
  induction h with
  | @first w i g hr =>
    have := GroupParser.recognise_index hr
    subst this
    exact ⟨w, [], g, rfl, hr⟩
  | @more ws g g' w hr ha ih =>
    obtain ⟨v, rest, g0, rfl, h0⟩ := ih
    rw [Parser.append_index ha]
    exact ⟨v, rest ++ [w], g0, rfl, h0⟩

theorem separate_not_taken {p : ReportPart} (hp : isBody p) {a b : Group × List Str} (ha : Written p a.2 a.1)
    (hu : ¬ Unfinished a.2) (hb : Written p b.2 b.1) (hs : Separate a b) {w : Str} {rest : List Str}
    (hw : b.2 = w :: rest) (g' : Group) : ¬ Written p (a.2 ++ [w]) g' := by
  intro hc
  have hra := written_reads hp (md := {}) ha
  have hrb := written_reads hp (md := {}) hb
  obtain ⟨y, hy⟩ := (taken_iff hp hra w).mpr ⟨g', hc⟩
  rcases hs with hne | hsev
  · obtain ⟨v, rest', g0, e, hk⟩ := first_kind hrb
    rw [hw] at e
    obtain ⟨rfl, -⟩ := List.cons.inj e
    rw [C67_other_kind hp hra hu w (fun x hx => by
      rcases C66_one_kind _ _ _ _ _ _ _ _ hx hk with e | ⟨e, -⟩
      · exact hne e
      · exact body_not_rmk hp e)] at hy
    cases hy
  · obtain ⟨ga, wsa⟩ := a
    dsimp only at *
    have hpl := hra.plain hp
    have hwt : ¬ Waits ga := fun h => hu (hra.unfinished hp h)
    cases ga with
    | trend | wind | weather | minMaxTemperature => cases hsev
    | keyword => cases hy
    | visibility x =>
      simp only [Waits, ne_eq, not_not] at hwt
      obtain ⟨z, -, hz⟩ := app_inj (mk := .visibility) hy
      exact visibility_closed hwt hz
    | cloud x =>
      obtain ⟨z, -, hz⟩ := app_inj (mk := .cloud) hy
      simp only [Plain] at hpl
      simp only [CloudGroup.append, hpl] at hz
      cases hz
    | temperature x =>
      obtain ⟨z, -, hz⟩ := app_inj (mk := .temperature) hy
      rw [C51_complete _ _ hpl] at hz; cases hz
    | pressure x =>
      obtain ⟨z, -, hz⟩ := app_inj (mk := .pressure) hy
      rw [C52_complete _ _ hpl] at hz; cases hz
    | runwayState => cases hy
    | seaSurface => cases hy
    | precipitation x =>
      obtain ⟨z, -, hz⟩ := app_inj (mk := .precipitation) hy
      simp only [Plain] at hpl
      simp only [PrecipitationGroup.append, hpl] at hz
      cases hz
    | layerForecast => cases hy
    | misc x =>
      obtain ⟨z, -, hz⟩ := app_inj (mk := .misc) hy
      simp only [Plain] at hpl
      simp only [MiscGroup.append, hpl] at hz
      cases hz
    | _ => exact hpl.elim

theorem divided_items {p : ReportPart} (hp : isBody p) {items : List (Group × List Str)}
    (hw : ∀ x ∈ items, Written p x.2 x.1 ∧ ¬ Unfinished x.2) (hs : items.IsChain Separate) :
    Divided p (items.flatMap Prod.snd) items := by
  induction items with
  | nil => exact .nil
  | cons a l ih =>
    obtain ⟨ha, hu⟩ := hw a (by simp)
    have := Divided.group (g := a.1) (ws := a.2) (rest := l.flatMap Prod.snd) (items := l) ha hu ?_
      (ih (fun x hx => hw x (by simp [hx])) hs.tail)
    · simpa using this
    · intro w hwh g'
      cases l with
      | nil => cases hwh
      | cons b l =>
        obtain ⟨hb, -⟩ := hw b (by simp)
        have hne := written_ne hp hb
        cases hb2 : b.2 with
        | nil => exact absurd hb2 hne
        | cons v rest =>
          simp only [List.flatMap_cons, hb2, List.cons_append, List.head?_cons, Option.some.injEq] at hwh
          subst hwh
          exact separate_not_taken hp ha hu hb (List.isChain_cons_cons.mp hs).1 hb2 g'

theorem written_known {p : ReportPart} (hp : isBody p) {ws : List Str} {g : Group} (h : Written p ws g) (u) :
    g ≠ .unknown u := by
  rintro rfl
  exact ((written_reads hp (md := {}) h).plain hp).elim

theorem entries_known {p : ReportPart} {items : List (Group × List Str)}
    (h : ∀ x ∈ items, ∀ u, x.1 ≠ .unknown u) :
    entries p items = items.map fun x => ⟨x.1, p, unwords x.2⟩ := by
  induction items with
  | nil => rfl
  | cons a l ih =>
    obtain ⟨g, ws⟩ := a
    rw [List.map_cons, ← ih fun x hx => h x (by simp [hx])]
    have := h (g, ws) (by simp)
    cases g with
    | unknown u => exact absurd rfl (this u)
    | _ => rfl

/-! ### Words of groups -/

theorem one_recognised {p : ReportPart} (hp : isBody p) {w : Str} {g : Group} (h : Written p [w] g) :
    Single w := by
  obtain ⟨v, rest, g0, e, hr⟩ := first_kind (written_reads hp (md := {}) h)
  obtain ⟨rfl, -⟩ := List.cons.inj e
  exact recognised_single (Or.inr hp) hr

theorem sentence_words {p : ReportPart} {ws : List TrendWord} (h : TrendSentence p ws) :
    ∀ w ∈ ws, w.Ok ∧ w.AllowedIn p := by
  induction h with
  | one h1 h2 => intro w hw; obtain rfl := List.mem_singleton.mp hw; exact ⟨h1, h2⟩
  | more _ h1 h2 _ ih =>
    intro w hw
    rcases List.mem_append.mp hw with hw | hw
    · exact ih w hw
    · obtain rfl := List.mem_singleton.mp hw; exact ⟨h1, h2⟩

theorem runway_single {pre : Str} (hpre : pre = c!"R" ∨ pre = c!"RWY") (n : Nat) (d : Designator) :
    Single (pre ++ decimal 2 n ++ designatorText d) := by
  refine single_of ?_ ?_
  · rcases hpre with rfl | rfl <;> simp
  · intro c hc
    simp only [List.mem_append] at hc
    rcases hc with (hc | hc) | hc
    · rcases hpre with rfl | rfl <;> (revert c; decide)
    · exact digit_good (decimal_digits 2 n c hc)
    · cases d <;> (revert c; decide)

theorem written_single {p : ReportPart} (hp : isBody p) {ws : List Str} {g : Group} (h : Written p ws g) :
    ∀ w ∈ ws, Single w := by
  have one : ∀ {s : Str} {g : Group}, Written p [s] g → ∀ w ∈ [s], Single w := by
    intro s g h w hw
    obtain rfl := List.mem_singleton.mp hw
    exact one_recognised hp h
  cases h with
  | trend h =>
    intro w hw
    obtain ⟨v, hv, rfl⟩ := List.mem_map.mp hw
    obtain ⟨h1, h2⟩ := sentence_words h v hv
    exact one_recognised hp (.trend (.one h1 h2))
  | wind h =>
    have hr : p ≠ .RMK := by rintro rfl; rcases hp with h | h <;> cases h
    cases h with
    | wind h1 h2 => exact one (.wind (.wind h1 h2))
    | windAndSector h1 h2 h3 h4 h5 h6 =>
      intro w hw
      rcases List.mem_cons.mp hw with rfl | hw
      · exact one_recognised hp (.wind (.wind h1 h2))
      · exact one (.wind (.sector h1 h5 h6)) w hw
    | sector h1 h2 h3 => exact one (.wind (.sector h1 h2 h3))
    | shearConditions h1 => exact one (.wind (.shearConditions h1))
    | shear h1 => exact one (.wind (.shear h1))
    | shearAll h1 =>
      intro w hw
      simp only [List.mem_cons, List.not_mem_nil, or_false] at hw
      rcases hw with rfl | rfl <;> exact single_of (by decide) (by decide)
    | shearAllRunways h1 =>
      intro w hw
      simp only [List.mem_cons, List.not_mem_nil, or_false] at hw
      rcases hw with rfl | rfl | rfl <;> exact single_of (by decide) (by decide)
    | shearRunway h1 h2 h3 =>
      intro w hw
      simp only [List.mem_cons, List.not_mem_nil, or_false] at hw
      rcases hw with rfl | rfl
      · exact single_of (by decide) (by decide)
      · exact runway_single h3 _ _
    | missing h => exact absurd h hr
    | missingWind h => exact absurd h hr
    | peak h => exact absurd h hr
    | peakWord h => exact absurd h hr
    | peakWind h => exact absurd h hr
    | shift h => exact absurd h hr
    | shiftFront h => exact absurd h hr
    | shiftTime h => exact absurd h hr
    | shiftTimeFront h => exact absurd h hr
  | @milesAndFraction k n s f hk hn hs hf =>
    intro w hw
    simp only [List.mem_cons, List.not_mem_nil, or_false] at hw
    rcases hw with rfl | rfl
    · refine single_of ?_ fun c hc => digit_good (decimal_digits k n c hc)
      intro e
      have := decimal_length k n
      rw [e] at this
      simp at this; omega
    · exact one_recognised hp (.visibility (Or.inr (Or.inr ⟨_, hs, rfl⟩)))
  | weather h1 h2 h3 =>
    intro w hw
    obtain ⟨e, he, rfl⟩ := List.mem_map.mp hw
    exact one_recognised hp (.weather (es := [e]) (by simp) (by simp)
      (by intro x hx; obtain rfl := List.mem_singleton.mp hx; exact h3 _ he))
  | recentWeather h1 h2 h3 =>
    intro w hw
    obtain ⟨e, he, rfl⟩ := List.mem_map.mp hw
    exact one_recognised hp (.recentWeather (es := [e]) (by simp) (by simp)
      (by intro x hx; obtain rfl := List.mem_singleton.mp hx; exact h3 _ he))
  | @forecastTemperatures a b g h1 h2 h3 h4 =>
    intro w hw
    simp only [List.mem_cons, List.not_mem_nil, or_false] at hw
    rcases hw with rfl | rfl
    · exact one_recognised hp (.forecastTemperature h1 h2 (single_forecast.mpr rfl))
    · exact one_recognised hp (.forecastTemperature h1 h3 (single_forecast.mpr rfl))
  | misc h =>
    cases h with
    | colour h1 h2 => exact one (.misc (.colour h1 h2))
    | correction h1 => exact one (.misc (.correction h1))
    | issuerN h1 => exact one (.misc (.issuerN h1))
    | issuerS h1 => exact one (.misc (.issuerS h1))
    | _ => exact absurd rfl (body_not_rmk hp)
  | keyword h1 => exact one (.keyword h1)
  | visibility h1 => exact one (.visibility h1)
  | runwayVisualRange h1 h2 => exact one (.runwayVisualRange h1 h2)
  | noClouds h1 => exact one (.noClouds h1)
  | cloud h1 => exact one (.cloud h1)
  | noWeather => exact one .noWeather
  | temperature h1 h2 h3 => exact one (.temperature h1 h2 h3)
  | pressure h1 h2 => exact one (.pressure h1 h2)
  | forecastPressure h1 h2 => exact one (.forecastPressure h1 h2)
  | snowClosed h1 h2 => exact one (.snowClosed h1 h2)
  | runwayState h1 h2 h3 => exact one (.runwayState h1 h2 h3)
  | seaSurface h1 h2 h3 => exact one (.seaSurface h1 h2 h3)
  | forecastTemperature h1 h2 h3 => exact one (.forecastTemperature h1 h2 h3)
  | rainfall h1 h2 h3 => exact one (.rainfall h1 h2 h3)
  | layer h1 h2 h3 => exact one (.layer h1 h2 h3)

theorem header_single {ty : ReportType} {hs : List (Str × Group)} (h : Header ty hs) :
    ∀ w ∈ hs.map Prod.fst, Single w := by
  have key : ∀ w ∈ [c!"METAR", c!"SPECI", c!"TAF", c!"COR", c!"AMD"], Single w := fun w hw =>
    single_of (by revert w; decide) (by revert w; decide)
  cases h with
  | @metar k cor l t L T hk hc hl ht =>
    intro w hw
    simp only [List.map_append, List.map_cons, List.map_nil, List.mem_append, List.mem_cons, List.not_mem_nil, or_false] at hw
    rcases hw with (rfl | hw) | rfl | rfl
    · apply key
      simp only [List.mem_cons, List.not_mem_nil, or_false] at hk
      rcases hk with rfl | rfl <;> simp
    · apply key
      simp only [List.mem_cons, List.not_mem_nil, or_false] at hc
      rcases hc with rfl | rfl
      · cases hw
      · simp only [List.map_cons, List.map_nil, List.mem_singleton] at hw
        subst hw; simp
    · exact recognised_single (Or.inl rfl) hl
    · exact recognised_single (Or.inl rfl) ht
  | @taf cor time l s L S hc hl ht hs =>
    intro w hw
    simp only [List.map_append, List.map_cons, List.map_nil, List.mem_append, List.mem_cons, List.not_mem_nil, or_false] at hw
    rcases hw with (((rfl | hw) | rfl) | hw) | rfl
    · exact key _ (by simp)
    · apply key
      simp only [List.mem_cons, List.not_mem_nil, or_false] at hc
      rcases hc with rfl | rfl | rfl
      · cases hw
      all_goals
        simp only [List.map_cons, List.map_nil, List.mem_singleton] at hw
        subst hw; simp
    · exact recognised_single (Or.inl rfl) hl
    · rcases ht with rfl | ⟨t, T, rfl, ht⟩
      · cases hw
      · simp only [List.map_cons, List.map_nil, List.mem_singleton] at hw
        subst hw
        exact recognised_single (Or.inl rfl) ht
    · exact recognised_single (Or.inl rfl) hs

/-! ### Property C70 -/

/-- C70. Groups written one after the other, each finished and such that neighbours are not confused,
are the groups into which their words are divided. -/
theorem C70_groups {p : ReportPart} (hp : p = .METAR ∨ p = .TAF) {items : List (Group × List Str)}
    (hw : ∀ x ∈ items, Written p x.2 x.1 ∧ ¬ Unfinished x.2) (hs : items.IsChain Separate) :
    Divided p (items.flatMap Prod.snd) items := divided_items hp hw hs

/-- C70. A report which is written as a header and a sequence of groups is decoded into exactly these
groups: for each of them the result has one group, in the part of the report where it is written, with
the text as it is written. The words of the report are separated by any blanks. -/
theorem C70_layout {report : Str} {limit : Nat} {ty : ReportType} {hs : List (Str × Group)}
    {items : List (Group × List Str)} (hh : HeaderText ty hs) (hne : items ≠ [])
    (hw : ∀ x ∈ items, Written (bodyPart ty) x.2 x.1 ∧ ¬ Unfinished x.2 ∧ ∀ w ∈ x.2, w ∉ stops (bodyPart ty))
    (hs' : items.IsChain Separate)
    (hg : Groups report (hs.map Prod.fst ++ items.flatMap Prod.snd))
    (hl : (hs.map Prod.fst ++ items.flatMap Prod.snd).length < limit) :
    ∃ r, Result report limit r ∧ r.reportMetadata.type = ty ∧ r.reportMetadata.error = .NONE ∧
      r.groups = hs.map (fun x => ⟨x.2, .HEADER, x.1⟩) ++
        items.map (fun x => ⟨x.1, bodyPart ty, unwords x.2⟩) := by
  have hh := header_iff.mp hh
  have hp : isBody (bodyPart ty) := by rcases bodyType hh with rfl | rfl <;> simp [isBody, bodyPart]
  rw [← entries_known (p := bodyPart ty) fun x hx => written_known hp (hw x hx).1]
  refine C69_body hh hg ?_ ?_ (by simpa using hl)
    (divided_items hp (fun x hx => ⟨(hw x hx).1, (hw x hx).2.1⟩) hs')
  · obtain ⟨x, hx⟩ := List.exists_mem_of_ne_nil _ hne
    obtain ⟨v, hv⟩ := List.exists_mem_of_ne_nil _ (written_ne hp (hw x hx).1)
    exact List.ne_nil_of_mem (List.mem_flatMap.mpr ⟨x, hx, hv⟩)
  · intro w hm
    obtain ⟨x, hx, hm⟩ := List.mem_flatMap.mp hm
    exact (hw x hx).2.2 w hm

/-- C70. What is written is read back. The words of a header and of a sequence of groups, joined by
spaces, and possibly followed by the end sign and anything else, are a report that is decoded into
exactly these groups. -/
theorem C70_report {limit : Nat} {ty : ReportType} {hs : List (Str × Group)} {items : List (Group × List Str)}
    (ending : Str) (he : ending = [] ∨ ∃ rest, ending = '=' :: rest) (hh : HeaderText ty hs) (hne : items ≠ [])
    (hw : ∀ x ∈ items, Written (bodyPart ty) x.2 x.1 ∧ ¬ Unfinished x.2 ∧ ∀ w ∈ x.2, w ∉ stops (bodyPart ty))
    (hs' : items.IsChain Separate) (hl : (hs.map Prod.fst ++ items.flatMap Prod.snd).length < limit) :
    ∃ r, Result (unwords (hs.map Prod.fst ++ items.flatMap Prod.snd) ++ ending) limit r ∧
      r.reportMetadata.type = ty ∧ r.reportMetadata.error = .NONE ∧
      r.groups = hs.map (fun x => ⟨x.2, .HEADER, x.1⟩) ++
        items.map (fun x => ⟨x.1, bodyPart ty, unwords x.2⟩) := by
  have hh' := header_iff.mp hh
  have hp : isBody (bodyPart ty) := by rcases bodyType hh' with rfl | rfl <;> simp [isBody, bodyPart]
  obtain ⟨r, hr, h⟩ := C70_layout (report := unwords (hs.map Prod.fst ++ items.flatMap Prod.snd)) hh hne hw hs'
    (groups_unwords (by
      intro w hm
      rcases List.mem_append.mp hm with hm | hm
      · exact header_single hh' w hm
      · obtain ⟨x, hx, hm⟩ := List.mem_flatMap.mp hm
        exact written_single hp (hw x hx).1 w hm)) hl
  refine ⟨r, ?_, h⟩
  rcases he with rfl | ⟨rest, rfl⟩
  · rwa [List.append_nil]
  · unfold Result at *
    have := C02_report_end (unwords (hs.map Prod.fst ++ items.flatMap Prod.snd)) rest limit
    rw [List.append_assoc] at this
    exact this.trans hr

/-- C70. The same for a report with remarks: whatever is written in the remarks, the header and the body
are decoded into the groups of which they are written, and everything after `RMK` belongs to the remarks. -/
theorem C70_remarks {report : Str} {limit : Nat} {ty : ReportType} {hs : List (Str × Group)}
    {items : List (Group × List Str)} {rmk : List Str} (hh : HeaderText ty hs)
    (hw : ∀ x ∈ items, Written (bodyPart ty) x.2 x.1 ∧ ¬ Unfinished x.2 ∧ ∀ w ∈ x.2, w ∉ stops (bodyPart ty))
    (hs' : items.IsChain Separate) (hr : ty = .TAF → c!"$" ∉ rmk)
    (hg : Groups report (hs.map Prod.fst ++ items.flatMap Prod.snd ++ c!"RMK" :: rmk))
    (hl : (hs.map Prod.fst ++ items.flatMap Prod.snd ++ c!"RMK" :: rmk).length < limit) :
    ∃ r rest, Result report limit r ∧ r.reportMetadata.type = ty ∧ r.reportMetadata.error = .NONE ∧
      r.groups = hs.map (fun x => ⟨x.2, .HEADER, x.1⟩) ++
        items.map (fun x => ⟨x.1, bodyPart ty, unwords x.2⟩) ++
        ⟨.keyword ⟨.RMK⟩, bodyPart ty, c!"RMK"⟩ :: rest ∧ ∀ x ∈ rest, x.reportPart = .RMK := by
  have hh := header_iff.mp hh
  have hp : isBody (bodyPart ty) := by rcases bodyType hh with rfl | rfl <;> simp [isBody, bodyPart]
  rw [← entries_known (p := bodyPart ty) fun x hx => written_known hp (hw x hx).1]
  refine C69_remarks hh hg ?_ hr (by simp only [List.length_append, List.length_map, List.length_cons] at hl; omega)
    (divided_items hp (fun x hx => ⟨(hw x hx).1, (hw x hx).2.1⟩) hs')
  intro w hm
  obtain ⟨x, hx, hm⟩ := List.mem_flatMap.mp hm
  exact (hw x hx).2.2 w hm

/-! ### Cases -/

/-- C69: the words `WS XYZ NOSIG`. The beginning of a wind shear is not continued, `XYZ` is no group. -/
example : Divided .METAR [c!"WS", c!"XYZ", c!"NOSIG"]
    [(.unknown {}, [c!"WS"]), (.unknown {}, [c!"XYZ"]), (.trend { t := .NOSIG }, [c!"NOSIG"])] := by
  have hx : ∀ g, ¬ Written .METAR [c!"XYZ"] g := by
    intro g h
    obtain ⟨v, rest, g0, e, hr⟩ := first_kind (written_reads (Or.inl rfl) (md := {}) h)
    obtain ⟨rfl, -⟩ := List.cons.inj e
    have hi := (recognise_shape hr).1
    have hn : recognise g.index c!"XYZ" .METAR {} = .ok none := by interval_cases g.index <;> rfl
    rw [hn] at hr
    cases hr
  refine .broken (ws := [c!"WS"]) (.wind (.shear rfl)) .shear ?_ (.unknown hx
    (.group (ws := [c!"NOSIG"]) (.trend (ws := [.nosig]) (.one trivial rfl)) nofun nofun .nil))
  rintro w hw g' h
  cases hw
  have hr := (taken_iff (Or.inl rfl) (written_reads (Or.inl rfl) (md := {}) (.wind (.shear rfl))) c!"XYZ").mpr ⟨g', h⟩
  obtain ⟨y, hy⟩ := hr
  cases hy

/-- The report `METAR ULLI 112200Z 24010G18KT 210V270 0800 -RA BR BKN012CB OVC020 M01/M05 TEMPO FM1200=`
is decoded into ten groups. -/
example : ∃ r, Result c!"METAR ULLI 112200Z 24010G18KT 210V270 0800 -RA BR BKN012CB OVC020 M01/M05 TEMPO FM1200=" 100 r ∧
    r.reportMetadata.type = .METAR ∧ r.reportMetadata.error = .NONE ∧ r.groups =
      [⟨.keyword ⟨.METAR⟩, .HEADER, c!"METAR"⟩, ⟨.location ⟨c!"ULLI"⟩, .HEADER, c!"ULLI"⟩,
       ⟨.reportTime ⟨⟨some 11, 22, 0⟩⟩, .HEADER, c!"112200Z"⟩,
       ⟨.wind { windType := .SURFACE_WIND_WITH_VARIABLE_SECTOR, windDir := ⟨240, .VALUE_DEGREES⟩
                wSpeed := ⟨some 10, .KNOTS⟩, gSpeed := ⟨some 18, .KNOTS⟩
                vsecBegin := ⟨210, .VALUE_DEGREES⟩, vsecEnd := ⟨270, .VALUE_DEGREES⟩ },
         .METAR, c!"24010G18KT 210V270"⟩,
       ⟨.visibility { vis := ⟨.NONE, some 800, .METERS⟩ }, .METAR, c!"0800"⟩,
       ⟨.weather { t := .CURRENT, w := [made .LIGHT .NONE [.RAIN], made .NONE .NONE [.MIST]] }, .METAR, c!"-RA BR"⟩,
       ⟨.cloud { tp := .CLOUD_LAYER, amnt := .BROKEN, heightOrVertVis := ⟨.NONE, some 1200, .FEET⟩
                 convtype := .CUMULONIMBUS }, .METAR, c!"BKN012CB"⟩,
       ⟨.cloud { tp := .CLOUD_LAYER, amnt := .OVERCAST, heightOrVertVis := ⟨.NONE, some 2000, .FEET⟩ }, .METAR,
         c!"OVC020"⟩,
       ⟨.temperature ⟨.TEMPERATURE_AND_DEW_POINT, (Degrees.value true 1).temperature,
         (Degrees.value true 5).temperature, false⟩, .METAR, c!"M01/M05"⟩,
       ⟨.trend { t := .TEMPO, tFrom := some ⟨none, 12, 0⟩ }, .METAR, c!"TEMPO FM1200"⟩] := by
  have rain : AllowedWeather true .LIGHT .NONE [.RAIN] :=
    .intensity rfl (by decide) ⟨by decide, by decide, by decide, by decide, by decide, by decide, by decide⟩
  let w : WindText := ⟨none, .tens 24, some 10, some 18, .KNOTS⟩
  have h1 : Written .METAR [w.text, decimal 3 (10 * 21) ++ c!"V" ++ decimal 3 (10 * 27)] _ :=
    .wind (.windAndSector (Or.inl rfl) ⟨by simp [w], by simp [w, WindDirection.Ok], by simp [w], by simp [w], by simp [w]⟩
      rfl (by decide) (by decide) (by decide))
  have h2 : Written .METAR [c!"0800"] _ := .visibility (Or.inr (Or.inl ⟨c!"0800", [], _, _, _,
    Or.inr (Or.inr ⟨800, by decide, rfl, rfl⟩), Or.inl ⟨rfl, rfl, rfl⟩, rfl, rfl⟩))
  let es : List WeatherParts := [(.LIGHT, .NONE, [.RAIN]), (.NONE, .NONE, [.MIST])]
  have h3 : Written .METAR (es.map fun e => weatherWritten e.1 e.2.1 e.2.2) _ :=
    .weather (es := es) (by simp [es]) (by simp [es]) (by
      intro e he
      simp only [es, List.mem_cons, List.not_mem_nil, or_false] at he
      rcases he with rfl | rfl
      · exact ⟨⟨rfl, Or.inr ⟨Or.inl rfl, rain⟩⟩, by decide⟩
      · exact ⟨⟨rfl, Or.inr ⟨Or.inl rfl, .plain (.single _ (by decide))⟩⟩, by decide⟩)
  have h4 : Written .METAR [c!"BKN012CB"] _ := .cloud ⟨c!"BKN", .BROKEN, some 12, c!"CB", .CUMULONIMBUS,
    by decide, by simp, by decide, by simp, by decide, rfl⟩
  have h5 : Written .METAR [c!"OVC020"] _ := .cloud ⟨c!"OVC", .OVERCAST, some 20, [], .NONE,
    by decide, by simp, by decide, by simp, by decide, rfl⟩
  have h6 : Written .METAR [c!"M01/M05"] _ :=
    .temperature (t := .value true 1) (d := some (.value true 5)) rfl (by simp [Degrees.Ok]) (by simp [Degrees.Ok])
  have h7 : Written .METAR ([TrendWord.tempo, .from 12 0].map TrendWord.text) _ :=
    .trend (.more (ws := [.tempo]) (.one trivial (Or.inl rfl)) ⟨by decide, by decide⟩ rfl
      (Or.inr (Or.inl ⟨⟨_, List.mem_singleton.mpr rfl, rfl⟩, rfl, by
        intro v hv
        obtain rfl := List.mem_singleton.mp hv
        exact ⟨Or.inl rfl, Or.inl rfl, Or.inl rfl, Or.inl rfl⟩⟩)))
  have hh : HeaderText .METAR [(c!"METAR", .keyword ⟨.METAR⟩), (c!"ULLI", .location ⟨c!"ULLI"⟩),
      (timeText 11 22 0, .reportTime ⟨⟨some 11, 22, 0⟩⟩)] :=
    .metar (k := (c!"METAR", .keyword ⟨.METAR⟩)) (cor := []) (by simp) (by simp)
      ⟨'U', 'L', 'L', 'I', rfl, ⟨by decide, by decide⟩, Or.inl ⟨by decide, by decide⟩,
        Or.inl ⟨by decide, by decide⟩, Or.inl ⟨by decide, by decide⟩⟩ (by decide) (by decide) (by decide)
  let item {ws g} (_ : Written .METAR ws g) : Group × List Str := (g, ws)
  refine C70_report (limit := 100) (items := [item h1, item h2, item h3, item h4, item h5, item h6, item h7]) c!"="
    (Or.inr ⟨[], rfl⟩) hh (by simp) ?_ ?_ (by decide)
  · intro x hx
    simp only [List.mem_cons, List.not_mem_nil, or_false] at hx
    rcases hx with rfl | rfl | rfl | rfl | rfl | rfl | rfl
    · exact ⟨h1, nofun, by decide⟩
    · exact ⟨h2, nofun, by decide⟩
    · exact ⟨h3, nofun, by decide⟩
    · exact ⟨h4, nofun, by decide⟩
    · exact ⟨h5, nofun, by decide⟩
    · exact ⟨h6, nofun, by decide⟩
    · exact ⟨h7, nofun, by decide⟩
  · simp [item, Separate, several, Group.index]

end Metaf.Props
