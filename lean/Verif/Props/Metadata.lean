import Verif.Props.ReportType

/-!
Properties C13 to C15: the metadata of the report against the groups of the result.
-/

set_option linter.unusedSectionVars false

namespace Metaf.Props

variable [FloatSem]

open Metaf.Parser Metaf.Spec

/-! ### C13 -/

theorem mem_skel {gs : List GroupInfo} {g : Group} (hg : sig g = some g) :
    g ∈ skel gs ↔ ∃ gi ∈ gs, gi.group = g := by
  simp only [skel, List.mem_filterMap]
  constructor
  · rintro ⟨gi, h1, h2⟩; exact ⟨gi, h1, (sig_eq h2).symm⟩
  · rintro ⟨gi, h1, rfl⟩; exact ⟨gi, h1, hg⟩

theorem flag_mem {f : ReportMetadata → Bool} {k : KeywordType} (h0 : f {} = false)
    (hk : ∀ g md, f (updateMetadata g md) = (f md || decide (g = .keyword ⟨k⟩))) (l : List Group) :
    f (l.foldr updateMetadata {}) = true ↔ .keyword ⟨k⟩ ∈ l := by
  induction l with
  | nil => simp [h0]
  | cons g l ih =>
    simp only [List.foldr_cons, hk, Bool.or_eq_true, decide_eq_true_eq, ih, List.mem_cons]
    constructor
    · rintro (h | h)
      · exact Or.inr h
      · exact Or.inl h.symm
    · rintro (h | h)
      · exact Or.inr h.symm
      · exact Or.inl h

/-- The keyword is among the groups of the result. -/
def HasKeyword (r : ParseResult) (k : KeywordType) : Prop :=
  ∃ gi ∈ r.groups, gi.group = .keyword ⟨k⟩

theorem flag_result {report : Str} {limit : Nat} {r : ParseResult} (hr : Result report limit r)
    {f : ReportMetadata → Bool} {k : KeywordType} (h0 : f {} = false)
    (hk : ∀ g md, f (updateMetadata g md) = (f md || decide (g = .keyword ⟨k⟩)))
    (hfin : ∀ md t e, f { md with type := t, error := e } = f md) :
    f r.reportMetadata = true ↔ HasKeyword r k := by
  obtain ⟨v, gs, hf⟩ := result_facts hr
  rw [hf.metadata, finalMd, hfin, hf.md, flag_mem h0 hk, mem_skel rfl, HasKeyword, hf.groups]
  simp

/-- C13. The attributes of the metadata which stand for a keyword are set exactly if the keyword is
among the groups of the result. -/
theorem C13_flags (report : Str) (limit : Nat) (r : ParseResult) (hr : Result report limit r) :
    (r.reportMetadata.isSpeci = true ↔ HasKeyword r .SPECI) ∧
    (r.reportMetadata.isNospeci = true ↔ HasKeyword r .NOSPECI) ∧
    (r.reportMetadata.isAutomated = true ↔ HasKeyword r .AUTO) ∧
    (r.reportMetadata.isAo1 = true ↔ HasKeyword r .AO1) ∧
    (r.reportMetadata.isAo1a = true ↔ HasKeyword r .AO1A) ∧
    (r.reportMetadata.isAo2 = true ↔ HasKeyword r .AO2) ∧
    (r.reportMetadata.isAo2a = true ↔ HasKeyword r .AO2A) ∧
    (r.reportMetadata.isNil = true ↔ HasKeyword r .NIL) ∧
    (r.reportMetadata.isCancelled = true ↔ HasKeyword r .CNL) ∧
    (r.reportMetadata.isAmended = true ↔ HasKeyword r .AMD) ∧
    (r.reportMetadata.maintenanceIndicator = true ↔ HasKeyword r .MAINTENANCE_INDICATOR) := by
  refine ⟨?_, ?_, ?_, ?_, ?_, ?_, ?_, ?_, ?_, ?_, ?_⟩
  all_goals
    refine flag_result hr rfl ?_ (fun _ _ _ => rfl)
    intro g md
    cases g with
    | keyword k => obtain ⟨k⟩ := k; cases k <;> simp [updateMetadata, keywordMetadata]
    | misc m =>
      simp only [updateMetadata]
      split
      · split <;> simp
      · simp
    | trend t => simp only [updateMetadata]; split <;> simp
    | _ => simp [updateMetadata]

section
attribute [local instance] exactFloat

example : ∃ r : ParseResult, Result c!"SPECI ZZZZ 041115Z AUTO CAVOK RMK AO2 $" 200 r ∧
    r.reportMetadata.isSpeci = true ∧ r.reportMetadata.isAutomated = true ∧
    r.reportMetadata.isAo2 = true ∧ r.reportMetadata.maintenanceIndicator = true ∧
    r.reportMetadata.isNil = false := by
  refine ⟨{ reportMetadata := _, groups := _ }, rfl, ?_⟩
  decide +kernel

end

/-- A mark of correction with letter (CCA, CCB, ...). -/
def IsCorrectionMark (g : Group) : Prop :=
  ∃ m, g = .misc m ∧ m.groupType = .CORRECTED_WEATHER_OBSERVATION

instance (g : Group) : Decidable (IsCorrectionMark g) :=
  match g with
  | .misc m => decidable_of_iff (m.groupType = .CORRECTED_WEATHER_OBSERVATION)
      (by simp [IsCorrectionMark])
  | .keyword _ | .location _ | .reportTime _ | .trend _ | .wind _ | .visibility _ | .cloud _
  | .weather _ | .temperature _ | .pressure _ | .runwayState _ | .seaSurface _
  | .minMaxTemperature _ | .precipitation _ | .layerForecast _ | .pressureTendency _
  | .cloudTypes _ | .lowMidHighCloud _ | .lightning _ | .vicinity _ | .unknown _ =>
    .isFalse (by simp [IsCorrectionMark])

/-- The text of a mark of correction. -/
theorem correction_entry {x : GroupInfo} (h : MiscText x) (hm : IsCorrectionMark x.group) :
    ∃ c : Char, 65 ≤ c.toNat ∧ c.toNat ≤ 90 ∧ x.rawString = ['C', 'C', c] ∧
      ∃ m, x.group = .misc m ∧ m.groupData = some ((c.toNat - 64 : Nat) : Rat) := by
  obtain ⟨m, hm, hc⟩ := hm
  have h := h m hm hc
  obtain ⟨⟨hp, hx⟩, -⟩ := MiscGroup.parse_corrected h hc
  obtain ⟨mm, hmm⟩ := Option.isSome_iff_exists.mp hx
  have hs := regexMatch_sound hmm
  simp only [MiscGroup.correctionRgx, Rx.match_seq, Rx.match_cap, Rx.match_lit, Rx.AZ,
    Rx.match_set] at hs
  obtain ⟨u, v, ca, cb, ⟨rfl, rfl⟩, ⟨_, ⟨c, hcc, rfl, rfl⟩, rfl⟩, hraw, hcaps⟩ := hs
  simp [Rx.inSet] at hcc
  refine ⟨c, hcc.1, hcc.2, hraw, m, hm, ?_⟩
  have hcol : MiscGroup.parseColourCode x.rawString = none := by
    have hu := mem_upperLetters hcc.1 hcc.2
    rw [hraw]
    exact correction_colour c hu
  rw [hp] at h
  simp only [MiscGroup.parse, hcol, hmm] at h
  injection h with h
  subst h
  simp only [hcaps, Option.some.injEq]
  have hstr : ch (Caps.str ([(1, [c])] ++ []) 1) 0 = c := rfl
  rw [hstr]
  have hA : 'A'.toNat = 65 := rfl
  rw [hA, show c.toNat - 65 + 1 = c.toNat - 64 by omega]
  have h24 : |((c.toNat - 64 : Nat) : Int)| ≤ 2 ^ 24 := by
    rw [abs_of_nonneg (Int.natCast_nonneg _)]
    omega
  exact FloatSem.f32_int _ h24

/-- C13. The report is marked as correction exactly if it holds COR or a mark of correction with
letter. -/
theorem C13_correctional (report : Str) (limit : Nat) (r : ParseResult)
    (hr : Result report limit r) :
    r.reportMetadata.isCorrectional = true ↔
      HasKeyword r .COR ∨ ∃ gi ∈ r.groups, IsCorrectionMark gi.group := by
  obtain ⟨v, gs, hf⟩ := result_facts hr
  rw [hf.metadata]
  have key : ∀ l : List Group, (∀ g ∈ l, IsCorrectionMark g → ∃ m q, g = .misc m ∧
      m.groupData = some q) →
      ((l.foldr updateMetadata {}).isCorrectional = true ↔
        .keyword ⟨.COR⟩ ∈ l ∨ ∃ g ∈ l, IsCorrectionMark g) := by
    intro l hl
    induction l with
    | nil => simp
    | cons g l ih =>
      have ih := ih (fun x hx => hl x (by simp [hx]))
      have step : (updateMetadata g (l.foldr updateMetadata {})).isCorrectional = true ↔
          (l.foldr updateMetadata {}).isCorrectional = true ∨ g = .keyword ⟨.COR⟩ ∨
            IsCorrectionMark g := by
        cases g with
        | keyword k =>
          obtain ⟨k⟩ := k
          cases k <;> simp [updateMetadata, keywordMetadata, IsCorrectionMark]
        | misc m =>
          by_cases hc : m.groupType = .CORRECTED_WEATHER_OBSERVATION
          · obtain ⟨m', q, h1, h2⟩ := hl (.misc m) (by simp) ⟨m, rfl, hc⟩
            injection h1 with h1
            subst h1
            simp [updateMetadata, hc, h2, IsCorrectionMark]
          · simp [updateMetadata, hc, IsCorrectionMark]
        | trend t => simp only [updateMetadata]; split <;> simp [IsCorrectionMark]
        | _ => simp [updateMetadata, IsCorrectionMark]
      simp only [List.foldr_cons, step, ih, List.mem_cons]
      constructor
      · rintro ((h | ⟨x, h, h'⟩) | h | h)
        · exact Or.inl (Or.inr h)
        · exact Or.inr ⟨x, Or.inr h, h'⟩
        · exact Or.inl (Or.inl h.symm)
        · exact Or.inr ⟨g, Or.inl rfl, h⟩
      · rintro ((h | h) | ⟨x, rfl | h, h'⟩)
        · exact Or.inr (Or.inl h.symm)
        · exact Or.inl (Or.inl h)
        · exact Or.inr (Or.inr h')
        · exact Or.inl (Or.inr ⟨x, h, h'⟩)
  have hsig : ∀ g, IsCorrectionMark g → sig g = some g := by
    rintro g ⟨m, rfl, hc⟩
    simp [sig, hc]
  simp only [finalMd]
  rw [hf.md, key]
  · rw [mem_skel rfl, HasKeyword, hf.groups]
    simp only [List.mem_reverse]
    refine or_congr Iff.rfl ⟨?_, ?_⟩
    · rintro ⟨g, h1, h2⟩
      obtain ⟨gi, h3, rfl⟩ := (mem_skel (hsig g h2)).mp h1
      exact ⟨gi, h3, h2⟩
    · rintro ⟨gi, h1, h2⟩
      exact ⟨gi.group, (mem_skel (hsig _ h2)).mpr ⟨gi, h1, rfl⟩, h2⟩
  · intro g hg hm
    obtain ⟨gi, h3, rfl⟩ := (mem_skel (hsig g hm)).mp hg
    obtain ⟨c, -, -, -, m, h4, h5⟩ := correction_entry (hf.misc gi h3) hm
    exact ⟨m, _, h4, h5⟩

/-! ### The latest and the earliest group -/

theorem last_value {β : Type} {f : ReportMetadata → β} {P : Group → Option β}
    (h : ∀ g md, f (updateMetadata g md) = (P g).getD (f md)) (l : List Group) :
    f (l.foldr updateMetadata {}) = (l.findSome? P).getD (f {}) := by
  induction l with
  | nil => rfl
  | cons g l ih =>
    simp only [List.foldr_cons, h, ih, List.findSome?_cons]
    cases P g <;> rfl

theorem skel_findSome {β : Type} {P : Group → Option β} (hP : ∀ g, sig g = none → P g = none)
    (gs : List GroupInfo) : (skel gs).findSome? P = gs.findSome? (fun gi => P gi.group) := by
  induction gs with
  | nil => rfl
  | cons x gs ih =>
    simp only [skel, List.filterMap_cons] at ih ⊢
    cases hs : sig x.group with
    | none => simp [ih, hP _ hs]
    | some g =>
      have := sig_eq hs
      subst this
      simp only [List.findSome?_cons, ih]

/-- A value set by the groups is that of the last of them. -/
theorem last_result {report : Str} {limit : Nat} {r : ParseResult} (hr : Result report limit r)
    {β : Type} {f : ReportMetadata → β} {P : Group → Option β}
    (h : ∀ g md, f (updateMetadata g md) = (P g).getD (f md)) (hP : ∀ g, sig g = none → P g = none)
    (hfin : ∀ md t e, f { md with type := t, error := e } = f md) :
    ((∀ gi ∈ r.groups, P gi.group = none) → f r.reportMetadata = f {}) ∧
    (∀ pre gi post b, r.groups = pre ++ gi :: post → P gi.group = some b →
      (∀ x ∈ post, P x.group = none) → f r.reportMetadata = b) := by
  obtain ⟨v, gs, hf⟩ := result_facts hr
  rw [hf.metadata, finalMd, hfin, hf.md, last_value h, skel_findSome hP]
  have hg : gs = r.groups.reverse := by rw [hf.groups]; simp
  rw [hg]
  constructor
  · intro hn
    have : List.findSome? (fun gi => P gi.group) r.groups.reverse = none := by
      simpa using hn
    rw [this]; rfl
  · intro pre gi post b he hb hn
    have h2 : List.findSome? (fun gi => P gi.group) post.reverse = none := by simpa using hn
    rw [he]
    simp [List.findSome?_append, h2, hb]

/-- C13. The number of the correction is that of the last mark of correction (CCA is 1), or 0. -/
theorem C13_correction_number (report : Str) (limit : Nat) (r : ParseResult)
    (hr : Result report limit r) :
    ((∀ gi ∈ r.groups, ¬ IsCorrectionMark gi.group) → r.reportMetadata.correctionNumber = some 0) ∧
    (∀ pre gi post, r.groups = pre ++ gi :: post → IsCorrectionMark gi.group →
      (∀ x ∈ post, ¬ IsCorrectionMark x.group) →
      ∃ c : Char, 'A' ≤ c ∧ c ≤ 'Z' ∧ gi.rawString = ['C', 'C', c] ∧
        r.reportMetadata.correctionNumber = some (c.toNat - 'A'.toNat + 1)) := by
  let P : Group → Option (Option Nat) := fun g =>
    match g with
    | .misc m => if m.groupType = .CORRECTED_WEATHER_OBSERVATION then
        m.groupData.map (fun v => some v.floor.toNat) else none
    | _ => none
  have hP : ∀ g, ¬ IsCorrectionMark g → P g = none := by
    intro g hg
    cases g with
    | misc m =>
      have : m.groupType ≠ .CORRECTED_WEATHER_OBSERVATION := fun h => hg ⟨m, rfl, h⟩
      simp [P, this]
    | _ => rfl
  obtain ⟨h1, h2⟩ := last_result hr (f := fun md => md.correctionNumber) (P := P)
    (by
      intro g md
      cases g with
      | keyword k => obtain ⟨k⟩ := k; cases k <;> simp [updateMetadata, keywordMetadata, P]
      | misc m =>
        simp only [updateMetadata, P]
        split
        · split <;> simp_all
        · simp
      | trend t => simp only [updateMetadata, P]; split <;> simp
      | _ => simp [updateMetadata, P])
    (by
      intro g hg
      refine hP g ?_
      rintro ⟨m, rfl, hc⟩
      simp [sig, hc] at hg)
    (fun _ _ _ => rfl)
  constructor
  · intro h
    exact h1 (fun gi hgi => hP _ (h gi hgi))
  · intro pre gi post he hm hn
    obtain ⟨v, gs, hf⟩ := result_facts hr
    have hgi : gi ∈ gs := by
      have : gi ∈ r.groups := by rw [he]; simp
      rw [hf.groups] at this
      simpa using this
    obtain ⟨c, hc1, hc2, hraw, m, hg, hd⟩ := correction_entry (hf.misc gi hgi) hm
    refine ⟨c, hc1, hc2, hraw, ?_⟩
    refine h2 pre gi post _ he ?_ (fun x hx => hP _ (hn x hx))
    obtain ⟨m', hg', hc'⟩ := hm
    rw [hg] at hg'
    injection hg' with hg'
    subst hg'
    rw [hg]
    simp only [P, hc', if_true, hd, Option.map_some]
    have hfl : ((c.toNat - 64 : Nat) : Rat).floor = ((c.toNat - 64 : Nat) : Int) :=
      Rat.floor_intCast _
    rw [hfl]
    have : 'A'.toNat = 65 := rfl
    rw [this]
    have h64 : c.toNat - 64 = c.toNat - 65 + 1 := by omega
    simp only [Int.toNat_natCast, h64]

/-! ### C14 -/

/-- The text of a location group. -/
def locationText : Group → Option Str
  | .location l => some l.toString
  | _ => none

/-- The time of a report time group. -/
def timeValue : Group → Option MetafTime
  | .reportTime t => some t.t
  | _ => none

/-- The text of a location: four characters, letters and digits, the first one a letter. -/
def IcaoLocation (s : Str) : Prop :=
  ∃ a b c d : Char, s = [a, b, c, d] ∧ ('A' ≤ a ∧ a ≤ 'Z') ∧
    ∀ x ∈ [b, c, d], ('A' ≤ x ∧ x ≤ 'Z') ∨ ('0' ≤ x ∧ x ≤ '9')

theorem location_text {s : Str} {p : ReportPart} {l : LocationGroup}
    (h : LocationGroup.parse s p = some l) : l.location = s ∧ IcaoLocation s := by
  unfold LocationGroup.parse at h
  ite_cases h
  · simp at h
  · simp at h
  · rename_i hm
    injection h with h
    subst h
    obtain ⟨m, hm⟩ := Option.ne_none_iff_exists'.mp (by simpa using hm)
    have hs := regexMatch_sound hm
    simp only [LocationGroup.rgx, Rx.match_seq, Rx.match_set, Rx.AZ, Rx.rep] at hs
    obtain ⟨_, _, _, _, ⟨a, ha, rfl, rfl⟩, ⟨_, _, _, _, ⟨b, hb, rfl, rfl⟩, ⟨_, _, _, _, ⟨c, hc, rfl, rfl⟩,
      ⟨d, hd, rfl, rfl⟩, rfl, rfl⟩, rfl, rfl⟩, rfl, rfl⟩ := hs
    simp [Rx.inSet] at ha hb hc hd
    refine ⟨rfl, a, b, c, d, rfl, ha, ?_⟩
    intro x hx
    simp only [List.mem_cons, List.not_mem_nil, or_false] at hx
    rcases hx with rfl | rfl | rfl <;> assumption

/-- C14. Location and time of the metadata are those of the last location and of the last report
time group of the result, and empty without such group. -/
theorem C14_location_time (report : Str) (limit : Nat) (r : ParseResult)
    (hr : Result report limit r) :
    ((∀ gi ∈ r.groups, locationText gi.group = none) → r.reportMetadata.icaoLocation = []) ∧
    (∀ pre gi post l, r.groups = pre ++ gi :: post → locationText gi.group = some l →
      (∀ x ∈ post, locationText x.group = none) →
      r.reportMetadata.icaoLocation = l ∧ l = gi.rawString) ∧
    ((∀ gi ∈ r.groups, timeValue gi.group = none) → r.reportMetadata.reportTime = none) ∧
    (∀ pre gi post t, r.groups = pre ++ gi :: post → timeValue gi.group = some t →
      (∀ x ∈ post, timeValue x.group = none) → r.reportMetadata.reportTime = some t) := by
  obtain ⟨h1, h2⟩ := last_result hr (f := fun md => md.icaoLocation) (P := locationText)
    (by
      intro g md
      cases g with
      | keyword k => obtain ⟨k⟩ := k; cases k <;> simp [updateMetadata, keywordMetadata, locationText]
      | misc m =>
        simp only [updateMetadata, locationText]
        split
        · split <;> simp
        · simp
      | trend t => simp only [updateMetadata]; split <;> simp [locationText]
      | _ => simp [updateMetadata, locationText])
    (by intro g hg; cases g <;> first | rfl | (simp [sig] at hg))
    (fun _ _ _ => rfl)
  obtain ⟨h3, h4⟩ := last_result hr (f := fun md => md.reportTime)
    (P := fun g => (timeValue g).map some)
    (by
      intro g md
      cases g with
      | keyword k => obtain ⟨k⟩ := k; cases k <;> simp [updateMetadata, keywordMetadata, timeValue]
      | misc m =>
        simp only [updateMetadata, timeValue]
        split
        · split <;> simp
        · simp
      | trend t => simp only [updateMetadata]; split <;> simp [timeValue]
      | _ => simp [updateMetadata, timeValue])
    (by intro g hg; cases g <;> first | rfl | (simp [sig] at hg))
    (fun _ _ _ => rfl)
  refine ⟨h1, fun pre gi post l he hl hn => ⟨h2 pre gi post l he hl hn, ?_⟩, ?_, ?_⟩
  · obtain ⟨v, gs, hf⟩ := result_facts hr
    have hgi : gi ∈ gs := by
      have : gi ∈ r.groups := by rw [he]; simp
      rw [hf.groups] at this
      simpa using this
    have := hf.entries gi hgi
    obtain ⟨g, p, s⟩ := gi
    cases g with
    | location x =>
      simp only [locationText, Option.some.injEq, LocationGroup.toString] at hl
      have this : LocationGroup.parse s p = some x := this
      exact (location_text this).1 ▸ hl.symm
    | _ => simp [locationText] at hl
  · intro h
    refine h3 (fun gi hgi => ?_)
    simp [h gi hgi]
  · intro pre gi post t he ht hn
    refine h4 pre gi post _ he (by simp [ht]) (fun x hx => by simp [hn x hx])

theorem mem_count {e : Element} {l : List Element} (h : l.count e = 1) :
    ∃ p q, l = p ++ e :: q ∧ e ∉ p ∧ e ∉ q := by
  have hm : e ∈ l := List.count_pos_iff.mp (by omega)
  obtain ⟨p, q, rfl⟩ := List.append_of_mem hm
  simp only [List.count_append, List.count_cons_self] at h
  exact ⟨p, q, rfl, fun hp => by have := List.count_pos_iff.mpr hp; omega,
    fun hq => by have := List.count_pos_iff.mpr hq; omega⟩

theorem head_location {t : ReportType} {h : List Element} (hh : Head t h) :
    h.count .location = 1 ∧ h.count .time = 0 ∧ h.count .span = 0 := by
  obtain ⟨m, hm, rfl⟩ := hh
  cases t with
  | UNKNOWN => have hm : m = [] := hm; subst hm; decide
  | METAR => rcases hm with rfl | rfl | rfl | rfl <;> decide
  | TAF => rcases hm with rfl | rfl | rfl <;> decide

theorem count_body {e : Element} {b : List Element} (h : ∀ x ∈ b, x ≠ e) : b.count e = 0 :=
  List.count_eq_zero.mpr (fun hx => h e hx rfl)

/-- Accepted reports have one location and at most one release time. -/
theorem accepted_count {t : ReportType} {l : List Element} (h : Accepted t l) :
    l.count .location = 1 ∧ l.count .time ≤ 1 := by
  have ms : ∀ {h e}, MetarStart h e → h.count .location = 1 ∧ h.count .time ≤ 1 := by
    rintro h e ⟨d, rfl, hd | ⟨hd, -⟩⟩ <;> simp [List.count_append, head_location hd]
  have ts : ∀ {h}, TafStart h → h.count .location = 1 ∧ h.count .time ≤ 1 := by
    rintro h ⟨d, ⟨hd, rfl⟩ | ⟨hd | hd, rfl⟩⟩ <;> simp [List.count_append, head_location hd]
  have mb : ∀ {b : List Element}, (∀ x ∈ b, MetarBody x) →
      b.count .location = 0 ∧ b.count .time = 0 := by
    intro b hb
    constructor <;> refine count_body (fun x hx hxe => ?_) <;> subst hxe <;>
      simpa [MetarBody] using hb _ hx
  have tb : ∀ {b : List Element}, (∀ x ∈ b, TafBody x) →
      b.count .location = 0 ∧ b.count .time = 0 := by
    intro b hb
    constructor <;> refine count_body (fun x hx hxe => ?_) <;> subst hxe <;>
      simpa [TafBody] using hb _ hx
  cases h with
  | nil hn =>
    cases hn with
    | plain hh => simp [List.count_append, head_location hh]
    | time hh => simp [List.count_append, head_location hh]
    | span hh => have := ts hh; simpa [List.count_append] using this
  | cnl hh => have := ts hh; simpa [List.count_append] using this
  | metar hh hb =>
    have h1 := ms hh
    have h2 := mb hb
    rw [List.count_append, List.count_append, h2.1, h2.2]
    exact h1
  | @metarRemarks h b r hh hb hrm =>
    have h1 := ms hh
    have h2 := mb hb
    have h3 : r.count .location = 0 := count_body (fun x hx hxe => by
      subst hxe; simpa using hrm _ hx)
    have h4 : r.count .time = 0 := count_body (fun x hx hxe => by
      subst hxe; simpa using hrm _ hx)
    simpa [List.count_append, h2, h3, h4] using h1
  | taf hh hb =>
    have h1 := ts hh
    have h2 := tb hb
    rw [List.count_append, List.count_append, h2.1, h2.2]
    exact h1
  | @tafRemarks h b r hh hb hrm =>
    have h1 := ts hh
    have h2 := tb hb
    have h3 : r.count .location = 0 := count_body (fun x hx hxe => by
      subst hxe; simpa using hrm _ hx)
    have h4 : r.count .time = 0 := count_body (fun x hx hxe => by
      subst hxe; simpa using hrm _ hx)
    simpa [List.count_append, h2, h3, h4] using h1

theorem elements_split {gs : List GroupInfo} {p q : List Element} {e : Element}
    (h : elements gs = p ++ e :: q) : ∃ a x b, gs = a ++ x :: b ∧ elements a = p ∧
      elementOf x.group = e ∧ elements b = q := by
  simp only [elements] at h
  obtain ⟨a, b, rfl, h1, h2⟩ := List.map_eq_append_iff.mp h
  obtain ⟨x, b', rfl, h3, h4⟩ := List.map_eq_cons_iff.mp h2
  exact ⟨a, x, b', rfl, h1, h3, h4⟩

theorem elementOf_location {g : Group} : elementOf g = .location ↔ (locationText g).isSome := by
  cases g with
  | keyword k => obtain ⟨k⟩ := k; cases k <;> simp [elementOf, locationText]
  | trend t => simp only [elementOf, locationText]; split <;> simp
  | _ => simp [elementOf, locationText]

theorem elementOf_time {g : Group} : elementOf g = .time ↔ (timeValue g).isSome := by
  cases g with
  | keyword k => obtain ⟨k⟩ := k; cases k <;> simp [elementOf, timeValue]
  | trend t => simp only [elementOf, timeValue]; split <;> simp
  | _ => simp [elementOf, timeValue]

/-- C14. A report accepted without error has exactly one location group, whose text is the ICAO
location of the metadata, and at most one release time, which is the time of the metadata. -/
theorem C14_accepted (report : Str) (limit : Nat) (r : ParseResult) (hr : Result report limit r)
    (he : r.reportMetadata.error = .NONE) :
    (∃ pre gi post, r.groups = pre ++ gi :: post ∧
      (∀ x ∈ pre ++ post, locationText x.group = none) ∧
      locationText gi.group = some gi.rawString ∧ gi.reportPart = .HEADER ∧
      IcaoLocation gi.rawString ∧ r.reportMetadata.icaoLocation = gi.rawString) ∧
    ((∀ x ∈ r.groups, timeValue x.group = none) ∧ r.reportMetadata.reportTime = none ∨
     ∃ pre gi post t, r.groups = pre ++ gi :: post ∧
      (∀ x ∈ pre ++ post, timeValue x.group = none) ∧
      timeValue gi.group = some t ∧ r.reportMetadata.reportTime = some t) := by
  obtain ⟨hc1, hc2⟩ := accepted_count (C10_accepted report limit r hr he)
  obtain ⟨h1, h2, h3, h4⟩ := C14_location_time report limit r hr
  constructor
  · obtain ⟨p, q, hl, hp, hq⟩ := mem_count hc1
    obtain ⟨a, x, b, hg, rfl, hx, rfl⟩ := elements_split hl
    have no : ∀ {l : List GroupInfo}, .location ∉ elements l →
        ∀ y ∈ l, locationText y.group = none := by
      intro l hnl y hy
      by_contra hne
      refine hnl (List.mem_map.mpr ⟨y, hy, elementOf_location.mpr ?_⟩)
      exact Option.isSome_iff_ne_none.mpr hne
    obtain ⟨l, hl'⟩ := Option.isSome_iff_exists.mp (elementOf_location.mp hx)
    obtain ⟨h5, rfl⟩ := h2 a x b l hg hl' (no hq)
    obtain ⟨v, gs, hf⟩ := result_facts hr
    have hgi : x ∈ gs := by
      have : x ∈ r.groups := by rw [hg]; simp
      rw [hf.groups] at this
      simpa using this
    have hent := hf.entries x hgi
    refine ⟨a, x, b, hg, ?_, hl', ?_, ?_, h5⟩
    · intro y hy
      rcases List.mem_append.mp hy with hy | hy
      · exact no hp y hy
      · exact no hq y hy
    · obtain ⟨g, p, s⟩ := x
      cases g with
      | location x =>
        have hent : LocationGroup.parse s p = some x := hent
        unfold LocationGroup.parse at hent
        by_contra hpp
        simp only at hpp
        simp [hpp] at hent
      | _ => simp [locationText] at hl'
    · obtain ⟨g, p, s⟩ := x
      cases g with
      | location x => exact (location_text hent).2
      | _ => simp [locationText] at hl'
  · have no : ∀ {l : List GroupInfo}, .time ∉ elements l →
        ∀ y ∈ l, timeValue y.group = none := by
      intro l hnl y hy
      by_contra hne
      refine hnl (List.mem_map.mpr ⟨y, hy, elementOf_time.mpr ?_⟩)
      exact Option.isSome_iff_ne_none.mpr hne
    by_cases hz : (elements r.groups).count .time = 0
    · have := no (List.count_eq_zero.mp hz)
      exact Or.inl ⟨this, h3 this⟩
    · right
      obtain ⟨p, q, hl, hp, hq⟩ := mem_count (l := elements r.groups) (e := .time) (by omega)
      obtain ⟨a, x, b, hg, rfl, hx, rfl⟩ := elements_split hl
      obtain ⟨t, ht⟩ := Option.isSome_iff_exists.mp (elementOf_time.mp hx)
      refine ⟨a, x, b, t, hg, ?_, ht, h4 a x b t hg ht (no hq)⟩
      intro y hy
      rcases List.mem_append.mp hy with hy | hy
      · exact no hp y hy
      · exact no hq y hy

/-! ### C15 -/

/-- The times of a time span group (with slash). -/
def spanValue : Group → Option (Option MetafTime × Option MetafTime)
  | .trend t => if t.isTafTimeSpanGroup then some (t.tFrom, t.tTill) else none
  | _ => none

theorem span_facts {t : TrendGroup} (h : t.isTimeSpanGroup = true) :
    t.t = .TIME_SPAN ∧ t.isTafTimeSpanGroup = true ∧ t.tFrom ≠ none ∧ t.tTill ≠ none := by
  unfold TrendGroup.isTimeSpanGroup at h
  ite_cases h
  · simp at h
  · simp at h
  · rename_i h1 h2
    simp only [ne_eq, not_or, Decidable.not_not, Bool.not_eq_false] at h1
    exact ⟨h1.1, h1.2.1, h1.2.2.2.1, h1.2.2.2.2⟩

theorem md_type (l : List Group) : (l.foldr updateMetadata {}).type = .UNKNOWN := by
  induction l with
  | nil => rfl
  | cons g l ih =>
    simp only [List.foldr_cons]
    generalize l.foldr updateMetadata {} = md at ih ⊢
    cases g with
    | keyword k => obtain ⟨k⟩ := k; cases k <;> simpa [updateMetadata, keywordMetadata] using ih
    | misc m =>
      simp only [updateMetadata]
      split
      · split <;> exact ih
      · exact ih
    | trend t => simp only [updateMetadata]; split <;> exact ih
    | _ => exact ih

theorem first_span (l : List Group) (hl : ∀ g ∈ l, ∀ t, g = .trend t → t.isTimeSpanGroup = true) :
    ((l.foldr updateMetadata {}).timeSpanFrom, (l.foldr updateMetadata {}).timeSpanUntil) =
      (l.reverse.findSome? spanValue).getD (none, none) := by
  induction l with
  | nil => rfl
  | cons g l ih =>
    have ih := ih (fun g hg => hl g (by simp [hg]))
    have ht := md_type l
    simp only [List.foldr_cons, List.reverse_cons, List.findSome?_append]
    generalize hmd : l.foldr updateMetadata {} = md at *
    have hsome : ∀ x, l.reverse.findSome? spanValue = some x → x.1 ≠ none := by
      intro x hx
      obtain ⟨g', hg', hv⟩ := List.exists_of_findSome?_eq_some hx
      cases g' with
      | trend t =>
        have := span_facts (hl (.trend t) (by simp [List.mem_reverse.mp hg']) t rfl)
        simp only [spanValue, this.2.1, if_true, Option.some.injEq] at hv
        subst hv
        exact this.2.2.1
      | _ => simp [spanValue] at hv
    cases g with
    | trend t =>
      have hs := span_facts (hl (.trend t) (by simp) t rfl)
      cases hfs : l.reverse.findSome? spanValue with
      | none =>
        rw [hfs] at ih
        simp only [Option.getD_none, Prod.mk.injEq] at ih
        simp [updateMetadata, ht, hs, ih, spanValue]
      | some x =>
        have hx := hsome x hfs
        rw [hfs] at ih
        simp only [Option.getD_some] at ih
        have : md.timeSpanFrom ≠ none := by rw [← ih] at hx; exact hx
        simp [updateMetadata, this, ih]
    | keyword k =>
      obtain ⟨k⟩ := k
      cases k <;> simpa [updateMetadata, keywordMetadata, spanValue] using ih
    | misc m =>
      have : (updateMetadata (.misc m) md).timeSpanFrom = md.timeSpanFrom ∧
          (updateMetadata (.misc m) md).timeSpanUntil = md.timeSpanUntil := by
        simp only [updateMetadata]
        split
        · split <;> simp
        · simp
      rw [this.1, this.2, ih]
      simp [spanValue]
    | _ => simpa [updateMetadata, spanValue] using ih

/-- C15. The time span of the metadata is that of the first time span group of the result, and
empty without such group. -/
theorem C15_first_span (report : Str) (limit : Nat) (r : ParseResult) (hr : Result report limit r) :
    ((∀ gi ∈ r.groups, elementOf gi.group ≠ .span) →
      r.reportMetadata.timeSpanFrom = none ∧ r.reportMetadata.timeSpanUntil = none) ∧
    (∀ pre gi post t, r.groups = pre ++ gi :: post → gi.group = .trend t →
      elementOf gi.group = .span → (∀ x ∈ pre, elementOf x.group ≠ .span) →
      r.reportMetadata.timeSpanFrom = t.tFrom ∧ r.reportMetadata.timeSpanUntil = t.tTill ∧
      t.t = .TIME_SPAN ∧ t.tFrom ≠ none ∧ t.tTill ≠ none) := by
  obtain ⟨v, gs, hf⟩ := result_facts hr
  have hent : ∀ gi ∈ gs, ∀ t, gi.group = .trend t → t.isTafTimeSpanGroup = true →
      t.isTimeSpanGroup = true := by
    intro gi hgi t ht hfl
    have := hf.entries gi hgi
    obtain ⟨g, p, s⟩ := gi
    simp only at ht
    subst ht
    exact (this hfl).1
  have hsk : ∀ g ∈ skel gs, ∀ t, g = .trend t → t.isTimeSpanGroup = true := by
    intro g hg t ht
    subst ht
    simp only [skel, List.mem_filterMap] at hg
    obtain ⟨gi, h1, h2⟩ := hg
    have h3 := sig_eq h2
    rw [← h3] at h2
    simp only [sig] at h2
    split at h2
    · rename_i hfl; exact hent gi h1 t h3.symm hfl
    · simp at h2
  have hmd := first_span (skel gs) hsk
  have hrev : (skel gs).reverse = skel gs.reverse := by
    simp [skel, List.filterMap_reverse]
  rw [← hf.md, hrev, ← hf.groups, skel_findSome] at hmd
  have hm1 : r.reportMetadata.timeSpanFrom = v.md.timeSpanFrom := by rw [hf.metadata]; rfl
  have hm2 : r.reportMetadata.timeSpanUntil = v.md.timeSpanUntil := by rw [hf.metadata]; rfl
  rw [hm1, hm2]
  have hspan : ∀ gi ∈ r.groups, elementOf gi.group ≠ .span → spanValue gi.group = none := by
    intro gi hgi hne
    rw [hf.groups] at hgi
    simp only [List.mem_reverse] at hgi
    cases hg : gi.group with
    | trend t =>
      rw [hg] at hne
      simp only [spanValue]
      split
      · rename_i hfl
        have := hent gi hgi t hg hfl
        simp [elementOf, this] at hne
      · rfl
    | _ => rfl
  constructor
  · intro hn
    have : r.groups.findSome? (fun gi => spanValue gi.group) = none := by
      rw [List.findSome?_eq_none_iff]
      intro gi hgi
      exact hspan gi hgi (hn gi hgi)
    rw [this] at hmd
    simpa using hmd
  · intro pre gi post t he hg hsp hn
    have hts : t.isTimeSpanGroup = true := by
      rw [hg] at hsp
      simp only [elementOf] at hsp
      split at hsp
      · assumption
      · simp at hsp
    have hs := span_facts hts
    have h1 : pre.findSome? (fun gi => spanValue gi.group) = none := by
      rw [List.findSome?_eq_none_iff]
      intro x hx
      exact hspan x (by rw [he]; simp [hx]) (hn x hx)
    rw [he, List.findSome?_append, h1] at hmd
    simp only [Option.none_or, List.findSome?_cons, hg, spanValue, hs.2.1, if_true,
      Option.getD_some, Prod.mk.injEq] at hmd
    exact ⟨hmd.1, hmd.2, hs.1, hs.2.2⟩
  · intro g hg
    cases g with
    | trend t => simpa [sig, spanValue] using hg
    | _ => rfl

/-- C15 for METAR, in part. A METAR whose body holds no time span group carries no time span. The
full claim, without the hypothesis on the body, is false: see `C15_violated`. -/
theorem C15_metar_partial (report : Str) (limit : Nat) (r : ParseResult)
    (hr : Result report limit r) (_ht : r.reportMetadata.type = .METAR)
    (hb : ∀ gi ∈ r.groups, elementOf gi.group ≠ .span) :
    r.reportMetadata.timeSpanFrom = none ∧ r.reportMetadata.timeSpanUntil = none :=
  (C15_first_span report limit r hr).1 hb

/-- C15 for TAF. A TAF accepted without error and not NIL carries the validity period of its header:
the times of the first time span group, which is in the header. -/
theorem C15_taf (report : Str) (limit : Nat) (r : ParseResult) (hr : Result report limit r)
    (he : r.reportMetadata.error = .NONE) (ht : r.reportMetadata.type = .TAF)
    (hnil : r.reportMetadata.isNil = false) :
    ∃ pre gi post t, r.groups = pre ++ gi :: post ∧ gi.group = .trend t ∧ gi.reportPart = .HEADER ∧
      (∀ x ∈ pre, elementOf x.group ≠ .span) ∧ t.t = .TIME_SPAN ∧ t.tFrom ≠ none ∧ t.tTill ≠ none ∧
      r.reportMetadata.timeSpanFrom = t.tFrom ∧ r.reportMetadata.timeSpanUntil = t.tTill := by
  have hacc := C10_accepted report limit r hr he
  rw [ht] at hacc
  have hh : ∃ h b, TafStart h ∧ elements r.groups = h ++ b := by
    generalize hl : elements r.groups = l at hacc
    cases hacc with
    | nil hn =>
      obtain ⟨p, rfl⟩ := nilReport_nil hn
      obtain ⟨a, x, b, hg, -, hx, -⟩ := elements_split hl
      have := (C13_flags report limit r hr).2.2.2.2.2.2.2.1.mpr
        ⟨x, by rw [hg]; simp, C09_type_known.elementOf_nil hx⟩
      rw [hnil] at this
      simp at this
    | @cnl h hh => exact ⟨h, [.cnl], hh, rfl⟩
    | taf hh => exact ⟨_, _, hh, rfl⟩
    | @tafRemarks h b r hh => exact ⟨h, b ++ .rmk :: r, hh, by simp⟩
  obtain ⟨h, b, hh, hl⟩ := hh
  have hd : ∃ d, h = d ++ [.span] ∧ .span ∉ d := by
    obtain ⟨d, ⟨hd, rfl⟩ | ⟨hd | hd, rfl⟩⟩ := hh
    · exact ⟨d, rfl, List.count_eq_zero.mp (head_location hd).2.2⟩
    · refine ⟨d ++ [.time], by simp, ?_⟩
      have := List.count_eq_zero.mp (head_location hd).2.2
      simpa using this
    · refine ⟨d ++ [.time], by simp, ?_⟩
      have := List.count_eq_zero.mp (head_location hd).2.2
      simpa using this
  obtain ⟨d, rfl, hnd⟩ := hd
  rw [List.append_assoc, List.singleton_append] at hl
  obtain ⟨a, x, b', hg, rfl, hx, -⟩ := elements_split hl
  have hpre : ∀ y ∈ a, elementOf y.group ≠ .span := by
    intro y hy hs
    exact hnd (List.mem_map.mpr ⟨y, hy, hs⟩)
  obtain ⟨t, htr⟩ : ∃ t, x.group = .trend t := by
    cases hxg : x.group with
    | trend t => exact ⟨t, rfl⟩
    | keyword k => obtain ⟨k⟩ := k; rw [hxg] at hx; cases k <;> simp [elementOf] at hx
    | _ => rw [hxg] at hx; simp [elementOf] at hx
  obtain ⟨h1, h2, h3, h4, h5⟩ := (C15_first_span report limit r hr).2 a x b' t hg htr hx hpre
  refine ⟨a, x, b', t, hg, htr, ?_, hpre, h3, h4, h5, h1, h2⟩
  obtain ⟨v, gs, hf⟩ := result_facts hr
  have hv : v.status.reportError = .NONE := by
    rw [(error_eq hf).1] at he
    rcases (finalTransition_error hf.status).1 with h1 | h1
    · rw [← h1, he]
    · exact h1.1
  rw [hf.part hv a x b' hg, hx]
  obtain ⟨d, ⟨hd, hs⟩ | ⟨hd, hs⟩⟩ := hh
  · rw [(List.append_inj' hs rfl).1, Grammar.verdict_head hd]
    rfl
  · have hs : elements a ++ [.span] = (d ++ [.time]) ++ [.span] := by rw [List.append_assoc]; exact hs
    rw [(List.append_inj' hs rfl).1, Grammar.verdict_append]
    rcases hd with hd | hd <;> rw [Grammar.verdict_head hd] <;> rfl

end Metaf.Props

/-! ### Examples with values -/

namespace Metaf.Props

open Metaf.Parser Metaf.Spec

attribute [local instance] exactFloat

example : ∃ r : ParseResult, Result c!"METAR ZZZZ 041115Z CCB CAVOK" 200 r ∧
    r.reportMetadata.isCorrectional = true ∧ r.reportMetadata.correctionNumber = some 2 := by
  refine ⟨{ reportMetadata := _, groups := _ }, rfl, ?_⟩
  decide +kernel

/-- C15 is violated: a METAR whose body holds a time span carries a validity time span. -/
theorem C15_violated : ∃ r : ParseResult, Result c!"METAR ZZZZ 041115Z 0100/0200 CAVOK" 200 r ∧
    r.reportMetadata.error = .NONE ∧ r.reportMetadata.type = .METAR ∧
    r.reportMetadata.timeSpanFrom.isSome = true := by
  refine ⟨{ reportMetadata := _, groups := _ }, rfl, ?_⟩
  decide +kernel

end Metaf.Props
