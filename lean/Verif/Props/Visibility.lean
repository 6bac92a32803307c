import Verif.Model.GroupsB
import Verif.Spec.Visibility
import Verif.Proofs.RegexText
import Verif.Proofs.RegexPriority
import Verif.Proofs.Util
import Verif.Props.Values
import Verif.Props.Distance
import Verif.Props.DistanceText

/-!
C47: visibility in metres and runway visual range.
-/

set_option linter.unusedSectionVars false

namespace Metaf.Props

open Metaf.Spec VisibilityGroup

variable [FloatSem]

/-! ### Visibility in metres -/

/-- Suffix as seen by the regular expression. -/
def SuffixLike (s : Str) : Prop :=
  ∃ a ∈ c!"NSWE", ∃ b ∈ [[], c!"W", c!"E", c!"D"], ∃ v ∈ [[], c!"V"], s = a :: (b ++ v)

theorem match_suffix {w : Str} {c : Caps} :
    Rx.Match (.oneOf c!"NSWE" ⬝ .opt (.oneOf c!"WED") ⬝ .opt (.oneOf c!"V")) w c ↔
      c = [] ∧ SuffixLike w := by
  simp only [Rx.match_seq, Rx.match_opt, Rx.match_oneOf]
  constructor
  · rintro ⟨_, _, _, _, ⟨a, ha, rfl, rfl⟩, ⟨_, _, _, _, hb, hv, rfl, rfl⟩, rfl, rfl⟩
    rcases hb with ⟨b, hb, rfl, rfl⟩ | ⟨rfl, rfl⟩ <;> rcases hv with ⟨v, hv, rfl, rfl⟩ | ⟨rfl, rfl⟩
    · exact ⟨rfl, a, ha, [b], by simp at hb ⊢; tauto, [v], by simp at hv ⊢; tauto, rfl⟩
    · exact ⟨rfl, a, ha, [b], by simp at hb ⊢; tauto, [], by simp, rfl⟩
    · exact ⟨rfl, a, ha, [], by simp, [v], by simp at hv ⊢; tauto, rfl⟩
    · exact ⟨rfl, a, ha, [], by simp, [], by simp, rfl⟩
  · rintro ⟨rfl, a, ha, b, hb, v, hv, rfl⟩
    refine ⟨[a], b ++ v, [], [], ⟨a, ha, rfl, rfl⟩, ⟨b, v, [], [], ?_, ?_, rfl, rfl⟩, rfl, rfl⟩
    · simp only [List.mem_cons, List.not_mem_nil, or_false] at hb
      rcases hb with rfl | rfl | rfl | rfl <;> simp
    · simp only [List.mem_cons, List.not_mem_nil, or_false] at hv
      rcases hv with rfl | rfl <;> simp

/-- Four characters of visibility as seen by the regular expression. -/
def MeterLike (s : Str) : Prop := s = c!"////" ∨ ∃ n < 10000, s = decimal 4 n

theorem MeterLike.length {s : Str} (h : MeterLike s) : s.length = 4 := by
  rcases h with rfl | ⟨n, -, rfl⟩
  · rfl
  · exact decimal_length 4 n

def suffixCaps : Option Str → Caps
  | some s => [(2, s)]
  | none => []

theorem meters_match (s : Str) (c : Caps) :
    metersRgx.Match s c ↔ ∃ f : Str × Option Str, (MeterLike f.1 ∧ ∀ x ∈ f.2, SuffixLike x) ∧
      s = f.1 ++ f.2.getD [] ∧ c = suffixCaps f.2 ++ [(1, f.1)] := by
  unfold metersRgx
  simp only [↓Rx.match_digits4, ↓match_suffix, Rx.match_seq (a := .cap 1 _), Rx.match_cap, Rx.match_alt,
    Rx.match_lit, Rx.match_opt]
  constructor
  · rintro ⟨u, v, ca, cb, ⟨cu, hu, rfl⟩, hv, rfl, rfl⟩
    have h1 : MeterLike u ∧ cu = [] := by
      rcases hu with ⟨rfl, n, hn, rfl⟩ | ⟨rfl, rfl⟩
      · exact ⟨Or.inr ⟨n, hn, rfl⟩, rfl⟩
      · exact ⟨Or.inl rfl, rfl⟩
    obtain ⟨h1, rfl⟩ := h1
    rcases hv with ⟨_, ⟨rfl, hv⟩, rfl⟩ | ⟨rfl, rfl⟩
    · exact ⟨(u, some v), ⟨h1, by simpa using hv⟩, rfl, rfl⟩
    · exact ⟨(u, none), ⟨h1, by simp⟩, rfl, rfl⟩
  · rintro ⟨⟨u, o⟩, ⟨h1, h2⟩, rfl, rfl⟩
    refine ⟨u, o.getD [], [(1, u)], suffixCaps o, ⟨[], ?_, rfl⟩, ?_, rfl, rfl⟩
    · rcases h1 with h | ⟨n, hn, h⟩
      · exact Or.inr ⟨h, rfl⟩
      · exact Or.inl ⟨rfl, n, hn, h⟩
    · cases o with
      | none => exact Or.inr ⟨rfl, rfl⟩
      | some v => exact Or.inl ⟨[], ⟨rfl, h2 v rfl⟩, rfl⟩

theorem SuffixLike.ne_nil {s : Str} (h : SuffixLike s) : s ≠ [] := by
  obtain ⟨a, _, b, _, v, _, rfl⟩ := h
  simp

theorem meters_inj (f f' : Str × Option Str) (h : MeterLike f.1 ∧ ∀ x ∈ f.2, SuffixLike x)
    (h' : MeterLike f'.1 ∧ ∀ x ∈ f'.2, SuffixLike x)
    (e : f.1 ++ f.2.getD [] = f'.1 ++ f'.2.getD []) :
    suffixCaps f.2 ++ [(1, f.1)] = suffixCaps f'.2 ++ [(1, f'.1)] := by
  obtain ⟨u, o⟩ := f
  obtain ⟨u', o'⟩ := f'
  obtain ⟨e1, e2⟩ := List.append_inj e (by rw [h.1.length, h'.1.length])
  simp only at e1 e2
  subst e1
  congr 2
  cases o <;> cases o'
  · rfl
  · exact absurd e2.symm (h'.2 _ rfl).ne_nil
  · exact absurd e2 (h.2 _ rfl).ne_nil
  · simp only [Option.getD_some] at e2
    rw [e2]

theorem cardinal_none (s : Str) (h1 : ∀ p ∈ octants, s ≠ p.1) (h2 : s ≠ c!"NDV") :
    Direction.fromCardinalString s = none := by
  cases h : Direction.fromCardinalString s with
  | none => rfl
  | some x =>
    rcases (C47_cardinal s false false x).mp h with ⟨n, hn, _⟩ | ⟨h', _⟩ | ⟨h', _⟩ | ⟨h', _⟩ | ⟨h', _⟩
    · exact absurd rfl (h1 _ hn)
    · exact absurd h' h2
    · cases h'
    · cases h'
    · cases h'

/-- Type of visibility by the direction after it. -/
def suffixType : Option Direction → VisibilityType
  | none => .PREVAILING
  | some x => if x.dirType = .NDV then .PREVAILING_NDV else
      if x.isValue then .DIRECTIONAL else .PREVAILING

theorem suffix_direction (s : Str) (t : VisibilityType) (d : Option Direction) :
    SuffixText s t d ↔ (s = [] ∨ SuffixLike s) ∧ d = Direction.fromCardinalString s ∧
      t = suffixType (Direction.fromCardinalString s) := by
  constructor
  · rintro (⟨rfl, rfl, rfl⟩ | ⟨n, hn, rfl, rfl⟩ | ⟨rfl, rfl, rfl⟩ | ⟨⟨h1, h2, h3⟩, rfl, rfl⟩)
    · exact ⟨Or.inl rfl, rfl, rfl⟩
    · rw [(C47_cardinal s false false _).mpr (Or.inl ⟨n, hn, rfl⟩)]
      refine ⟨Or.inr ?_, rfl, rfl⟩
      simp only [octants, List.mem_cons, Prod.mk.injEq, List.not_mem_nil, or_false] at hn
      rcases hn with ⟨rfl, _⟩ | ⟨rfl, _⟩ | ⟨rfl, _⟩ | ⟨rfl, _⟩ | ⟨rfl, _⟩ | ⟨rfl, _⟩ | ⟨rfl, _⟩ |
        ⟨rfl, _⟩ <;> simp [SuffixLike]
    · exact ⟨Or.inr (by simp [SuffixLike]), rfl, rfl⟩
    · rw [cardinal_none s h1 h2]
      exact ⟨Or.inr h3, rfl, rfl⟩
  · rintro ⟨hs, rfl, rfl⟩
    cases h : Direction.fromCardinalString s with
    | none =>
      rcases hs with rfl | hs
      · exact Or.inl ⟨rfl, rfl, rfl⟩
      · refine Or.inr (Or.inr (Or.inr ⟨⟨?_, ?_, hs⟩, rfl, rfl⟩))
        · rintro ⟨x, n⟩ hn rfl
          rw [(C47_cardinal s false false _).mpr (Or.inl ⟨n, hn, rfl⟩)] at h
          cases h
        · rintro rfl
          cases h
    | some x =>
      rcases (C47_cardinal s false false x).mp h with ⟨n, hn, rfl⟩ | ⟨rfl, rfl⟩ | ⟨h', _⟩ | ⟨h', _⟩ |
        ⟨h', _⟩
      · exact Or.inr (Or.inl ⟨n, hn, rfl, rfl⟩)
      · exact Or.inr (Or.inr (Or.inl ⟨rfl, rfl, rfl⟩))
      · cases h'
      · cases h'
      · cases h'

theorem meterText_like {s : Str} {d : Distance} (h : MeterText s d) : MeterLike s := by
  rcases h with ⟨rfl, _⟩ | ⟨rfl, _⟩ | ⟨n, hn, rfl, _⟩
  · exact Or.inl rfl
  · exact Or.inr ⟨9999, by decide, by decide⟩
  · exact Or.inr ⟨n, by omega, rfl⟩

theorem fromMeters_eq {s v : Str} {o : Option Str}
    (h : regexMatch metersRgx s = some (suffixCaps o ++ [(1, v)])) :
    fromMeters s = (Distance.fromMeterString v).map fun d =>
      { vis := d
        visType := suffixType (Direction.fromCardinalString (o.getD []))
        dir := Direction.fromCardinalString (o.getD []) } := by
  have h1 : Caps.str (suffixCaps o ++ [(1, v)]) 1 = v := by cases o <;> rfl
  have h2 : Caps.str (suffixCaps o ++ [(1, v)]) 2 = o.getD [] := by cases o <;> rfl
  unfold fromMeters
  simp only [h, h1, h2]
  cases Distance.fromMeterString v with
  | none => rfl
  | some d =>
    simp only [Option.map_some]
    cases Direction.fromCardinalString (o.getD []) <;> rfl

/-- C47. Visibility in metres: the value, and the direction if any. -/
theorem C47_visibility_meters (s : Str) (g : VisibilityGroup) :
    fromMeters s = some g ↔
      ∃ v x d t o, MeterText v d ∧ SuffixText x t o ∧ s = v ++ x ∧
        g = { vis := d, visType := t, dir := o } := by
  constructor
  · intro h
    cases hm : regexMatch metersRgx s with
    | none => simp [fromMeters, hm] at h
    | some m =>
      obtain ⟨⟨v, o⟩, ⟨-, h2⟩, hs, rfl⟩ := (regexMatch_form meters_match meters_inj s m).mp hm
      rw [fromMeters_eq hm, Option.map_eq_some_iff] at h
      obtain ⟨d, hd, rfl⟩ := h
      refine ⟨v, o.getD [], d, _, _, (C47_meters v d).mp hd, (suffix_direction _ _ _).mpr ⟨?_, rfl, rfl⟩,
        hs, rfl⟩
      cases o with
      | none => exact Or.inl rfl
      | some x => exact Or.inr (h2 x rfl)
  · rintro ⟨v, x, d, t, o, hv, hx, rfl, rfl⟩
    obtain ⟨hl, rfl, rfl⟩ := (suffix_direction _ _ _).mp hx
    have hm : ∃ o : Option Str, o.getD [] = x ∧
        regexMatch metersRgx (v ++ x) = some (suffixCaps o ++ [(1, v)]) := by
      rcases hl with rfl | hl
      · exact ⟨none, rfl, (regexMatch_form meters_match meters_inj _ _).mpr
          ⟨(v, none), ⟨meterText_like hv, by simp⟩, rfl, rfl⟩⟩
      · exact ⟨some x, rfl, (regexMatch_form meters_match meters_inj _ _).mpr
          ⟨(v, some x), ⟨meterText_like hv, by simpa using hl⟩, rfl, rfl⟩⟩
    obtain ⟨o, rfl, hm⟩ := hm
    rw [fromMeters_eq hm, (C47_meters v d).mpr hv]
    rfl

/-! ### Runway visual range -/

open RvrText

theorem match_rvrValue {w : Str} {c : Caps} :
    rvrValueRx.Match w c ↔ c = [] ∧ ∃ x : RvrLimit × Nat, x.2 < 10000 ∧ w = valueText x := by
  unfold rvrValueRx
  rw [Rx.match_seq]
  simp only [Rx.match_digits4, Rx.match_opt, Rx.match_oneOf]
  constructor
  · rintro ⟨_, _, _, _, ⟨a, ha, rfl, rfl⟩ | ⟨rfl, rfl⟩, ⟨rfl, n, hn, rfl⟩, rfl, rfl⟩
    · simp only [List.mem_cons, List.not_mem_nil, or_false] at ha
      rcases ha with rfl | rfl
      · exact ⟨rfl, (.above, n), hn, rfl⟩
      · exact ⟨rfl, (.below, n), hn, rfl⟩
    · exact ⟨rfl, (.exact, n), hn, rfl⟩
  · rintro ⟨rfl, ⟨l, n⟩, hn, rfl⟩
    refine ⟨l.text, decimal 4 n, [], [], ?_, ⟨rfl, n, hn, rfl⟩, rfl, rfl⟩
    cases l
    · exact Or.inr ⟨rfl, rfl⟩
    · exact Or.inl ⟨'P', by simp, rfl, rfl⟩
    · exact Or.inl ⟨'M', by simp, rfl, rfl⟩

theorem match_rvrRunway {w : Str} {c : Caps} :
    Rx.Match (runwayRx ∥ .lit c!"R//") w c ↔
      c = [] ∧ ∃ r : Option Runway, (∀ x ∈ r, x.rNumber < 100) ∧ w = runwayPart r := by
  rw [Rx.match_alt, Rx.match_lit]
  unfold runwayRx
  simp only [Rx.match_seq, Rx.match_d, Rx.match_chr, Rx.match_opt, Rx.match_oneOf]
  constructor
  · rintro (⟨_, _, _, _, ⟨rfl, rfl⟩, ⟨_, _, _, _, ⟨a, ha, rfl, rfl⟩, ⟨_, _, _, _, ⟨b, hb, rfl, rfl⟩,
      hd, rfl, rfl⟩, rfl, rfl⟩, rfl, rfl⟩ | ⟨rfl, rfl⟩)
    · obtain ⟨n, hn, h⟩ := two_digits ha hb
      rcases hd with ⟨x, hx, rfl, rfl⟩ | ⟨rfl, rfl⟩
      · simp only [List.mem_cons, List.not_mem_nil, or_false] at hx
        rcases hx with rfl | rfl | rfl
        · exact ⟨rfl, some ⟨n, .RIGHT⟩, by simpa using hn, by simp [runwayPart, ← h, designatorText]⟩
        · exact ⟨rfl, some ⟨n, .CENTER⟩, by simpa using hn, by simp [runwayPart, ← h, designatorText]⟩
        · exact ⟨rfl, some ⟨n, .LEFT⟩, by simpa using hn, by simp [runwayPart, ← h, designatorText]⟩
      · exact ⟨rfl, some ⟨n, .NONE⟩, by simpa using hn, by simp [runwayPart, ← h, designatorText]⟩
    · exact ⟨rfl, none, by simp, rfl⟩
  · rintro ⟨rfl, r, hr, rfl⟩
    cases r with
    | none => exact Or.inr ⟨rfl, rfl⟩
    | some r =>
      obtain ⟨n, d⟩ := r
      obtain ⟨a, b, ha, hb, h⟩ := decimal_two_digits n
      refine Or.inl ⟨['R'], a :: b :: designatorText d, [], [], ⟨rfl, rfl⟩,
        ⟨[a], b :: designatorText d, [], [], ⟨a, ha, rfl, rfl⟩,
          ⟨[b], designatorText d, [], [], ⟨b, hb, rfl, rfl⟩, ?_, rfl, rfl⟩, rfl, rfl⟩,
          by simp [runwayPart, h], rfl⟩
      cases d <;> simp [designatorText]

/-- The part of runway visual range before unit and trend. -/
structure RvrHead where
  runway : Option Runway
  value : Option (RvrLimit × Nat)
  max : Option (RvrLimit × Nat)

namespace RvrHead

def Ok (v : RvrHead) : Prop :=
  (∀ r ∈ v.runway, r.rNumber < 100) ∧ (∀ x ∈ v.value, x.2 < 10000) ∧ (∀ x ∈ v.max, x.2 < 10000)

def text (v : RvrHead) : Str :=
  runwayPart v.runway ++ c!"/" ++ valuePart v.value ++ maxPart v.max

def maxCaps : Option (RvrLimit × Nat) → Caps
  | some x => [(3, valueText x)]
  | none => []

def caps (v : RvrHead) : Caps :=
  maxCaps v.max ++ ((2, valuePart v.value) :: [(1, runwayPart v.runway)])

end RvrHead

/-- The regular expression of `fromRvr` up to the unit. -/
def rvrHeadRx : Rx :=
  ((.cap 1 (runwayRx ∥ .lit c!"R//") ⬝ .chr '/') ⬝ .cap 2 (.lit c!"////" ∥ rvrValueRx)) ⬝
  .opt (.chr 'V' ⬝ .cap 3 rvrValueRx)

/-- The regular expression of `fromRvr` from the unit on. -/
def rvrTailRx : Rx :=
  .opt (.cap 4 (.lit c!"FT" ⬝ .opt (.chr '/'))) ⬝ .opt (.cap 5 (.oneOf c!"UND/"))

theorem rvr_split (s : Str) : regexMatch rvrRgx s = regexMatch (rvrHeadRx ⬝ rvrTailRx) s := by
  unfold rvrRgx rvrHeadRx rvrTailRx
  rw [regexMatch_seq_assoc, regexMatch_seq_assoc, regexMatch_seq_assoc]

theorem rvrHead_match (s : Str) (c : Caps) :
    rvrHeadRx.Match s c ↔ ∃ f : RvrHead, f.Ok ∧ s = f.text ∧ c = f.caps := by
  unfold rvrHeadRx
  simp only [↓match_rvrRunway, ↓match_rvrValue, Rx.match_seq, Rx.match_cap, Rx.match_alt (b := rvrValueRx), Rx.match_chr,
    Rx.match_opt, Rx.match_lit]
  constructor
  · rintro ⟨_, _, _, _, ⟨_, wv, _, _, ⟨_, _, _, _, ⟨_, ⟨rfl, r, hr, rfl⟩, rfl⟩, ⟨rfl, rfl⟩, rfl, rfl⟩,
      ⟨cv, hv, rfl⟩, rfl, rfl⟩, hm, rfl, rfl⟩
    have hv' : ∃ v, (∀ x ∈ v, x.2 < 10000) ∧ wv = valuePart v ∧ cv = ([] : Caps) := by
      rcases hv with ⟨rfl, rfl⟩ | ⟨rfl, x, hx, rfl⟩
      · exact ⟨none, by simp, rfl, rfl⟩
      · exact ⟨some x, by simpa using hx, rfl, rfl⟩
    obtain ⟨v, hv1, rfl, rfl⟩ := hv'
    rcases hm with ⟨_, _, _, _, ⟨rfl, rfl⟩, ⟨_, ⟨rfl, x, hx, rfl⟩, rfl⟩, rfl, rfl⟩ | ⟨rfl, rfl⟩
    · exact ⟨⟨r, v, some x⟩, ⟨hr, hv1, by simpa using hx⟩, rfl, rfl⟩
    · exact ⟨⟨r, v, none⟩, ⟨hr, hv1, by simp⟩, rfl, rfl⟩
  · rintro ⟨⟨r, v, m⟩, ⟨hr, hv, hm⟩, rfl, rfl⟩
    refine ⟨runwayPart r ++ c!"/" ++ valuePart v, maxPart m, (2, valuePart v) :: [(1, runwayPart r)],
      RvrHead.maxCaps m, ⟨runwayPart r ++ c!"/", valuePart v, [(1, runwayPart r)], [(2, valuePart v)],
        ⟨runwayPart r, c!"/", [(1, runwayPart r)], [], ⟨[], ⟨rfl, r, hr, rfl⟩, rfl⟩, ⟨rfl, rfl⟩, rfl, rfl⟩,
        ⟨[], ?_, rfl⟩, rfl, rfl⟩, ?_, rfl, rfl⟩
    · cases v with
      | none => exact Or.inl ⟨rfl, rfl⟩
      | some x => exact Or.inr ⟨rfl, x, hv x rfl, rfl⟩
    · cases m with
      | none => exact Or.inr ⟨rfl, rfl⟩
      | some x =>
        exact Or.inl ⟨['V'], valueText x, [], [(3, valueText x)], ⟨rfl, rfl⟩,
          ⟨[], ⟨rfl, x, hm x rfl, rfl⟩, rfl⟩, rfl, rfl⟩

def tailText (feet separator : Bool) (trend : RvrTrend) : Str :=
  unitPart feet separator ++ rvrTrendText trend

def TailOk (feet separator : Bool) (trend : RvrTrend) : Prop :=
  (separator = true → feet = true) ∧ (feet = true → trend = .NOT_REPORTED → separator = true)

def tailCaps (feet separator : Bool) (trend : RvrTrend) : Caps :=
  (if trend = .NONE then [] else [(5, rvrTrendText trend)]) ++
    (if feet then [(4, unitPart feet separator)] else [])

theorem rvrTail_match {t : Str} {c : Caps} (h : rvrTailRx.Match t c) :
    ∃ f s d, TailOk f s d ∧ t = tailText f s d := by
  unfold rvrTailRx at h
  simp only [Rx.match_seq, Rx.match_opt, Rx.match_cap, Rx.match_lit, Rx.match_chr, Rx.match_oneOf] at h
  obtain ⟨_, wd, _, _, hu, hd, rfl, -⟩ := h
  have hd : ∃ d, wd = rvrTrendText d := by
    rcases hd with ⟨_, ⟨x, hx, rfl, rfl⟩, rfl⟩ | ⟨rfl, rfl⟩
    · simp only [List.mem_cons, List.not_mem_nil, or_false] at hx
      rcases hx with rfl | rfl | rfl | rfl
      · exact ⟨.UPWARD, rfl⟩
      · exact ⟨.NEUTRAL, rfl⟩
      · exact ⟨.DOWNWARD, rfl⟩
      · exact ⟨.NOT_REPORTED, rfl⟩
    · exact ⟨.NONE, rfl⟩
  obtain ⟨d, rfl⟩ := hd
  rcases hu with ⟨_, ⟨_, _, _, _, ⟨rfl, rfl⟩, ⟨rfl, rfl⟩ | ⟨rfl, rfl⟩, rfl, rfl⟩, rfl⟩ | ⟨rfl, rfl⟩
  · exact ⟨true, true, d, ⟨by simp, by simp⟩, rfl⟩
  · by_cases hd : d = .NOT_REPORTED
    · subst hd
      exact ⟨true, true, .NONE, ⟨by simp, by simp⟩, rfl⟩
    · exact ⟨true, false, d, ⟨by simp, fun _ h => absurd h hd⟩, rfl⟩
  · exact ⟨false, false, d, ⟨by simp, by simp⟩, rfl⟩

theorem rvrTail_regex (f s : Bool) (d : RvrTrend) (h : TailOk f s d) :
    regexMatch rvrTailRx (tailText f s d) = some (tailCaps f s d) := by
  obtain ⟨h1, h2⟩ := h
  cases f <;> cases s <;> cases d <;> first | rfl | exact absurd (h1 rfl) (by decide) |
    exact absurd (h2 rfl rfl) (by decide)

theorem runwayPart_split {r r' : Option Runway} {x x' : Str}
    (h : runwayPart r ++ '/' :: x = runwayPart r' ++ '/' :: x') :
    runwayPart r = runwayPart r' ∧ x = x' := by
  have key : ∀ (q : Runway) (y y' : Str), runwayPart (some q) ++ '/' :: y ≠ c!"R//" ++ y' := by
    intro q y y' e
    obtain ⟨a, b, ha, hb, hn⟩ := decimal_two_digits q.rNumber
    simp only [runwayPart, hn, List.cons_append, List.nil_append, List.cons.injEq] at e
    rw [e.2.1] at ha
    cases ha
  cases r with
  | none =>
    cases r' with
    | none => exact ⟨rfl, by simpa [runwayPart] using h⟩
    | some r' => exact absurd h.symm (key r' _ _)
  | some r =>
    cases r' with
    | none => exact absurd h (key r _ _)
    | some r' =>
      obtain ⟨a, b, ha, hb, hn⟩ := decimal_two_digits r.rNumber
      obtain ⟨a', b', ha', hb', hn'⟩ := decimal_two_digits r'.rNumber
      simp only [runwayPart, hn, hn', List.cons_append, List.nil_append, List.cons.injEq, true_and] at h ⊢
      obtain ⟨rfl, rfl, h⟩ := h
      revert h
      cases r.rDesignator <;> cases r'.rDesignator <;> simp [designatorText]

theorem valueText_split {v v' : RvrLimit × Nat} {x x' : Str}
    (h : valueText v ++ x = valueText v' ++ x') : valueText v = valueText v' ∧ x = x' := by
  obtain ⟨l, n⟩ := v
  obtain ⟨l', n'⟩ := v'
  obtain ⟨a, b, c, d, ha, hb, hc, hd, hn⟩ := decimal_four_digits n
  obtain ⟨a', b', c', d', ha', hb', hc', hd', hn'⟩ := decimal_four_digits n'
  have hP : isDigit 'P' = false := rfl
  have hM : isDigit 'M' = false := rfl
  revert h
  simp only [valueText, hn, hn']
  cases l <;> cases l' <;> simp only [RvrLimit.text, List.nil_append, List.cons_append, List.cons.injEq,
    and_imp, true_and, and_true, reduceCtorEq, false_imp_iff] <;> intros <;> subst_vars <;>
    simp_all

theorem valuePart_split {v v' : Option (RvrLimit × Nat)} {x x' : Str}
    (h : valuePart v ++ x = valuePart v' ++ x') : valuePart v = valuePart v' ∧ x = x' := by
  have key : ∀ (q : RvrLimit × Nat) (y y' : Str), valueText q ++ y ≠ c!"////" ++ y' := by
    rintro ⟨l, n⟩ y y' e
    obtain ⟨a, b, c, d, ha, hb, hc, hd, hn⟩ := decimal_four_digits n
    have hs : isDigit '/' = false := rfl
    cases l <;> simp_all [valueText, RvrLimit.text]
  cases v with
  | none =>
    cases v' with
    | none => exact ⟨rfl, by simpa [valuePart] using h⟩
    | some v' => exact absurd h.symm (key v' _ _)
  | some v =>
    cases v' with
    | none => exact absurd h (key v _ _)
    | some v' => exact valueText_split h

theorem tailText_head (f s : Bool) (d : RvrTrend) (x : Str) : tailText f s d ≠ 'V' :: x := by
  cases f <;> cases s <;> cases d <;> simp [tailText, unitPart, rvrTrendText]

theorem maxPart_split {m m' : Option (RvrLimit × Nat)} {f s : Bool} {d : RvrTrend} {f' s' : Bool}
    {d' : RvrTrend} (h : maxPart m ++ tailText f s d = maxPart m' ++ tailText f' s' d') :
    maxPart m = maxPart m' ∧ tailText f s d = tailText f' s' d' := by
  cases m with
  | none =>
    cases m' with
    | none => exact ⟨rfl, h⟩
    | some m' => exact absurd h (tailText_head _ _ _ _)
  | some m =>
    cases m' with
    | none => exact absurd h.symm (tailText_head _ _ _ _)
    | some m' =>
      simp only [maxPart, List.cons_append, List.cons.injEq, true_and] at h ⊢
      exact valueText_split h

theorem maxCaps_eq {m m' : Option (RvrLimit × Nat)} (h : maxPart m = maxPart m') :
    RvrHead.maxCaps m = RvrHead.maxCaps m' := by
  cases m <;> cases m' <;> simp_all [maxPart, RvrHead.maxCaps]

theorem rvr_regex_text (h : RvrHead) (hh : h.Ok) (f s : Bool) (d : RvrTrend) (ht : TailOk f s d) :
    regexMatch rvrRgx (h.text ++ tailText f s d) = some (tailCaps f s d ++ h.caps) := by
  rw [rvr_split, regexMatch_seq ((rvrHead_match _ _).mpr ⟨h, hh, rfl, rfl⟩), rvrTail_regex f s d ht]
  · rfl
  · intro w' t' ca' cb' h1 h2 e
    obtain ⟨h', hh', rfl, rfl⟩ := (rvrHead_match _ _).mp h1
    obtain ⟨f', s', d', -, rfl⟩ := rvrTail_match h2
    obtain ⟨r, v, m⟩ := h
    obtain ⟨r', v', m'⟩ := h'
    simp only [RvrHead.text, List.append_assoc, List.cons_append, List.nil_append] at e
    obtain ⟨e1, e⟩ := runwayPart_split e
    obtain ⟨e2, e⟩ := valuePart_split e
    obtain ⟨e3, e⟩ := maxPart_split e
    simp only [RvrHead.text, RvrHead.caps, e1, e2, e3, e, maxCaps_eq e3, and_self]

theorem rvr_regex (s : Str) (m : Caps) :
    regexMatch rvrRgx s = some m ↔ ∃ (h : RvrHead) (f p : Bool) (d : RvrTrend), h.Ok ∧ TailOk f p d ∧
      s = h.text ++ tailText f p d ∧ m = tailCaps f p d ++ h.caps := by
  constructor
  · intro hm
    have h1 := hm
    rw [rvr_split] at h1
    obtain ⟨u, v, ca, cb, ha, hb, rfl, -⟩ := Rx.match_seq.mp (regexMatch_sound h1)
    obtain ⟨h, hh, rfl, rfl⟩ := (rvrHead_match _ _).mp ha
    obtain ⟨f, p, d, ht, rfl⟩ := rvrTail_match hb
    rw [rvr_regex_text h hh f p d ht] at hm
    exact ⟨h, f, p, d, hh, ht, rfl, (Option.some.inj hm).symm⟩
  · rintro ⟨h, f, p, d, hh, ht, rfl, rfl⟩
    exact rvr_regex_text h hh f p d ht

theorem rvr_caps (h : RvrHead) (f p : Bool) (d : RvrTrend) :
    Caps.str (tailCaps f p d ++ h.caps) 1 = runwayPart h.runway ∧
    Caps.str (tailCaps f p d ++ h.caps) 2 = valuePart h.value ∧
    Caps.str (tailCaps f p d ++ h.caps) 3 = (h.max.map valueText).getD [] ∧
    Caps.str (tailCaps f p d ++ h.caps) 4 = unitPart f p ∧
    Caps.str (tailCaps f p d ++ h.caps) 5 = rvrTrendText d := by
  obtain ⟨r, v, m⟩ := h
  cases f <;> cases p <;> cases d <;> cases m <;>
    exact ⟨rfl, rfl, rfl, rfl, rfl⟩

theorem rvr_distance (o : Option (RvrLimit × Nat)) (ho : ∀ x ∈ o, x.2 < 10000) (feet : Bool) :
    Distance.fromRvrString (valuePart o) feet = some (RvrText.distance o feet) := by
  rw [C47_rvr]
  cases o with
  | none => exact Or.inl ⟨rfl, rfl⟩
  | some x =>
    obtain ⟨l, n⟩ := x
    refine Or.inr ⟨n, ho _ rfl, rfl, rfl, ?_⟩
    cases l
    · exact Or.inl ⟨rfl, rfl⟩
    · exact Or.inr (Or.inl ⟨rfl, rfl⟩)
    · exact Or.inr (Or.inr ⟨rfl, rfl⟩)

theorem rvr_runway (o : Option Runway) (ho : ∀ r ∈ o, r.rNumber < 100) :
    Runway.fromString (runwayPart o) = o := by
  cases o with
  | none => rfl
  | some r =>
    exact (C24_runway _ _ _).mpr ⟨ho r rfl, c!"R", Or.inl rfl, rfl⟩

theorem runwayPart_none {o : Option Runway} : runwayPart o = c!"R//" ↔ o = none := by
  constructor
  · intro h
    cases o with
    | none => rfl
    | some r =>
      obtain ⟨a, b, ha, hb, hn⟩ := decimal_two_digits r.rNumber
      simp only [runwayPart, hn, List.cons_append, List.nil_append, List.cons.injEq] at h
      rw [h.2.1] at ha
      cases ha
  · rintro rfl; rfl

theorem valuePart_none {o : Option (RvrLimit × Nat)} : valuePart o = c!"////" ↔ o = none := by
  constructor
  · intro h
    cases o with
    | none => rfl
    | some x =>
      obtain ⟨l, n⟩ := x
      obtain ⟨a, b, c, d, ha, hb, hc, hd, hn⟩ := decimal_four_digits n
      have hs : isDigit '/' = false := rfl
      cases l <;> simp_all [valuePart, valueText, RvrLimit.text]
  · rintro rfl; rfl

theorem valueText_ne_nil (x : RvrLimit × Nat) : valueText x ≠ [] := by
  intro h
  have := congrArg List.length h
  simp [valueText, decimal_length] at this

theorem trend_text (d : RvrTrend) : trendFromString (rvrTrendText d) = d := by cases d <;> rfl

theorem trend_slash {d : RvrTrend} : rvrTrendText d = c!"/" ↔ d = .NOT_REPORTED := by
  cases d <;> simp [rvrTrendText]

theorem unit_empty (f p : Bool) : (unitPart f p).isEmpty = !f := by cases f <;> cases p <;> rfl

/-- C47. Runway visual range is recognised with the runway, values, unit and trend written. -/
theorem C47_runway_visual_range (s : Str) (g : VisibilityGroup) :
    fromRvr s = some g ↔ ∃ v : RvrText, v.Ok ∧ s = v.text ∧ g = v.group := by
  have eval : ∀ (h : RvrHead) (f p : Bool) (d : RvrTrend), h.Ok → TailOk f p d →
      fromRvr (h.text ++ tailText f p d) =
        if h.runway = none ∧ (h.value ≠ none ∨ d = .NOT_REPORTED) then none
        else some (RvrText.group ⟨h.runway, h.value, h.max, f, p, d⟩) := by
    intro h f p d hh ht
    obtain ⟨c1, c2, c3, c4, c5⟩ := rvr_caps h f p d
    unfold fromRvr
    simp only [rvr_regex_text h hh f p d ht, c1, c2, c3, c4, c5, runwayPart_none, valuePart_none, ne_eq,
      trend_slash, trend_text, unit_empty, Bool.not_not, rvr_runway _ hh.1, rvr_distance _ hh.2.1]
    obtain ⟨r, v, m⟩ := h
    simp only
    by_cases hr : r = none
    · by_cases hv : v = none
      · by_cases hd : d = .NOT_REPORTED
        · simp [hr, hv, hd]
        · simp only [hr, hv, hd, not_true_eq_false, and_false, if_false, or_self]
          cases m with
          | none => rfl
          | some x =>
            have := rvr_distance (some x) hh.2.2 f
            simp only [valuePart] at this
            simp [this, valueText_ne_nil, RvrText.group]
      · simp [hr, hv]
    · simp only [hr, false_and, if_false, not_false_eq_true, and_true]
      cases m with
      | none => rfl
      | some x =>
        have := rvr_distance (some x) hh.2.2 f
        simp only [valuePart] at this
        simp [this, valueText_ne_nil, RvrText.group]
  constructor
  · intro h
    cases hm : regexMatch rvrRgx s with
    | none => simp [fromRvr, hm] at h
    | some m =>
      obtain ⟨hd, f, p, d, hh, ht, rfl, -⟩ := (rvr_regex s m).mp hm
      rw [eval hd f p d hh ht] at h
      split at h
      · cases h
      · rename_i hc
        refine ⟨⟨hd.runway, hd.value, hd.max, f, p, d⟩, ⟨hh.1, hh.2.1, hh.2.2, ht.1, ht.2, ?_⟩, ?_,
          (Option.some.inj h).symm⟩
        · intro hr
          simp only at hr
          simp only [hr, true_and, not_or, ne_eq, not_not] at hc
          exact hc
        · simp [RvrText.text, RvrHead.text, tailText]
  · rintro ⟨v, hv, rfl, rfl⟩
    have := eval ⟨v.runway, v.value, v.max⟩ v.feet v.separator v.trend ⟨hv.1, hv.2.1, hv.2.2.1⟩
      ⟨hv.2.2.2.1, hv.2.2.2.2.1⟩
    rw [if_neg (by
      rintro ⟨h1, h2 | h2⟩
      · exact h2 (hv.2.2.2.2.2 h1).1
      · exact (hv.2.2.2.2.2 h1).2 h2)] at this
    rw [← this]
    simp [RvrText.text, RvrHead.text, tailText]

/-! ### The whole group -/

theorem findFrom_isSome {s : Str} {c : Char} : (findFrom s c 0).isSome = true ↔ c ∈ s := by
  unfold findFrom
  split
  · simp
  · rename_i h
    have : s = [] := List.length_eq_zero_iff.mp (by omega)
    simp [this]

/-- The whole number before a fraction of miles. -/
theorem incompleteInteger_iff (s : Str) (g : VisibilityGroup) :
    fromIncompleteInteger s = some g ↔ ∃ k n, (k = 1 ∨ k = 2) ∧ n < 10 ^ k ∧ s = decimal k n ∧
      g = { vis := ⟨.NONE, some (10000 * n), .STATUTE_MILES⟩, incompleteText := .INTEGER } := by
  constructor
  · intro h
    unfold fromIncompleteInteger appendInteger at h
    by_cases h1 : (s.isEmpty || decide (s.length > 3)) = true
    · simp [h1] at h
    · by_cases h2 : (findFrom s '/' 0).isSome = true
      · simp [h1, h2] at h
      · have hr : (({} : VisibilityGroup).vis.isReported) = false := rfl
        simp only [h1, h2, hr] at h
        cases hm : Distance.fromMileString s true with
        | none => simp [hm] at h
        | some d =>
          obtain ⟨p, t, m, q, rfl, hp, ht, rfl⟩ := (C32_miles_remark s d).mp hm
          simp only [hm] at h
          by_cases hmod : m = .NONE
          · subst hmod
            obtain rfl : p = [] := by
              rcases hp with ⟨h, _⟩ | ⟨_, h⟩ | ⟨_, h⟩
              · exact h
              · cases h
              · cases h
            rw [findFrom_isSome] at h2
            rcases ht with ⟨k, n, hk, hn, rfl, rfl⟩ | ⟨i, j, a, b, _, _, _, _, rfl, _⟩
            · refine ⟨k, n, hk, hn, rfl, ?_⟩
              simp only [visibility, isVariable, ne_eq, not_true_eq_false, if_false, Bool.false_eq_true,
                Option.some.injEq] at h
              rw [← h]
              have : ⌊((n : Nat) : Rat) * 10000⌋₊ = 10000 * n := by
                rw [show ((n : Nat) : Rat) * 10000 = ((10000 * n : Nat) : Rat) by push_cast; ring]
                exact Nat.floor_natCast _
              rw [this]
            · exact absurd (by simp) h2
          · simp [visibility, isVariable, hmod] at h
  · rintro ⟨k, n, hk, hn, rfl, rfl⟩
    have hl := decimal_length k n
    have h1 : ((decimal k n).isEmpty || decide ((decimal k n).length > 3)) = false := by
      rcases hk with rfl | rfl <;> simp [hl, ← List.length_eq_zero_iff]
    have h2 : (findFrom (decimal k n) '/' 0).isSome = false := by
      by_contra hc
      rw [Bool.not_eq_false, findFrom_isSome] at hc
      exact absurd (decimal_digits _ _ _ hc) (by decide)
    have h3 : Distance.fromMileString (decimal k n) true = some ⟨.NONE, some (10000 * n), .STATUTE_MILES⟩ := by
      rw [C32_miles_remark]
      refine ⟨[], decimal k n, .NONE, n, rfl, Or.inl ⟨rfl, rfl⟩, Or.inl ⟨k, n, hk, hn, rfl, rfl⟩, ?_⟩
      have : ⌊((n : Nat) : Rat) * 10000⌋₊ = 10000 * n := by
        rw [show ((n : Nat) : Rat) * 10000 = ((10000 * n : Nat) : Rat) by push_cast; ring]
        exact Nat.floor_natCast _
      rw [this]
    have hr : (({} : VisibilityGroup).vis.isReported) = false := rfl
    unfold fromIncompleteInteger appendInteger
    simp only [h1, h2, h3, hr]
    rfl

/-- The text `s` is visibility in miles with the unit. -/
def MilesGroup (s : Str) (d : Distance) : Prop :=
  (s = c!"////SM" ∧ d = ⟨.NONE, none, .STATUTE_MILES⟩) ∨
  ∃ p t m q, s = p ++ t ++ c!"SM" ∧ MilePrefix p m ∧ MileText t q ∧
    d = ⟨m, some ⌊q * 10000⌋₊, .STATUTE_MILES⟩

/-- Visibility in the body of a report: whole miles before a fraction, metres, miles. -/
def BodyVisibility (s : Str) (g : VisibilityGroup) : Prop :=
  (∃ k n, (k = 1 ∨ k = 2) ∧ n < 10 ^ k ∧ s = decimal k n ∧
    g = { vis := ⟨.NONE, some (10000 * n), .STATUTE_MILES⟩, incompleteText := .INTEGER }) ∨
  (∃ v x d t o, MeterText v d ∧ SuffixText x t o ∧ s = v ++ x ∧
    g = { vis := d, visType := t, dir := o }) ∨
  (∃ d, MilesGroup s d ∧ g = { vis := d })

theorem miles_end {s : Str} {d : Distance} (h : MilesGroup s d) :
    ∃ t, s = t ++ c!"SM" ∧ t ≠ [] := by
  rcases h with ⟨rfl, _⟩ | ⟨p, t, m, q, rfl, _, ht, _⟩
  · exact ⟨c!"////", rfl, by simp⟩
  · obtain ⟨c, r, rfl, _⟩ := mileText_head ht
    exact ⟨p ++ c :: r, rfl, by simp⟩

theorem meters_shape {v x : Str} {d : Distance} {t : VisibilityType} {o : Option Direction}
    (hv : MeterText v d) (hx : SuffixText x t o) :
    v.length = 4 ∧ 'M' ∉ v ++ x ∧ 'R' ∉ v ++ x := by
  have hl := meterText_like hv
  refine ⟨hl.length, ?_⟩
  have hx' := ((suffix_direction _ _ _).mp hx).1
  have hv' : 'M' ∉ v ∧ 'R' ∉ v := by
    rcases hl with rfl | ⟨n, _, rfl⟩
    · decide
    · constructor <;> intro h <;> exact absurd (decimal_digits _ _ _ h) (by decide)
  have hx'' : 'M' ∉ x ∧ 'R' ∉ x := by
    rcases hx' with rfl | ⟨a, ha, b, hb, w, hw, rfl⟩
    · simp
    · clear hx
      revert a b w
      decide
  simp [hv'.1, hv'.2, hx''.1, hx''.2]

theorem miles_head {s : Str} {d : Distance} (h : MilesGroup s d) : ∀ x, s ≠ 'R' :: x := by
  intro x e
  rcases h with ⟨rfl, _⟩ | ⟨p, t, m, q, rfl, hp, ht, _⟩
  · cases e
  · obtain ⟨c, r, rfl, hc⟩ := mileText_head ht
    rcases hp with ⟨rfl, _⟩ | ⟨rfl, _⟩ | ⟨rfl, _⟩
    · simp only [List.nil_append, List.cons_append, List.cons.injEq] at e
      rw [e.1] at hc
      cases hc
    · cases e
    · cases e

theorem rvr_head (v : RvrText) : ∃ x, v.text = 'R' :: x := by
  obtain ⟨r, _, _, _, _, _⟩ := v
  cases r
  · exact ⟨_, rfl⟩
  · exact ⟨_, rfl⟩

/-- C47. Visibility in the body of a weather report: exactly the texts of whole miles, metres,
miles and runway visual range, with the components written. -/
theorem C47_metar (s : Str) (g : VisibilityGroup) :
    VisibilityGroup.parse s .METAR = some g ↔
      BodyVisibility s g ∨ ∃ v : RvrText, v.Ok ∧ s = v.text ∧ g = v.group := by
  have hi := incompleteInteger_iff s
  have hm := C47_visibility_meters s
  have hs := C32_miles s
  have hr := C47_runway_visual_range s
  have hdec : ∀ k n x, s = decimal k n → s = 'R' :: x → False := by
    intro k n x h1 h2
    have : isDigit 'R' = true := decimal_digits k n 'R' (by rw [← h1, h2]; simp)
    cases this
  unfold VisibilityGroup.parse BodyVisibility
  simp only
  cases h1 : fromIncompleteInteger s with
  | some v =>
    simp only [Option.some.injEq]
    obtain ⟨k, n, hk, hn, e, rfl⟩ := (hi v).mp h1
    constructor
    · rintro rfl
      exact Or.inl (Or.inl ⟨k, n, hk, hn, e, rfl⟩)
    · rintro ((h | ⟨v, x, d, t, o, hv, hx, e2, rfl⟩ | ⟨d, hd, rfl⟩) | ⟨v, _, e2, _⟩)
      · have := (hi g).mpr h
        rw [h1] at this
        exact Option.some.inj this
      · have h4 := (meters_shape hv hx).1
        have := congrArg List.length (e.symm.trans e2)
        rw [decimal_length, List.length_append, h4] at this
        omega
      · obtain ⟨t, e2, _⟩ := miles_end hd
        have : isDigit 'M' = true := decimal_digits k n 'M' (by rw [← e, e2]; simp)
        cases this
      · obtain ⟨x, hx⟩ := rvr_head v
        exact (hdec k n x e (e2.trans hx)).elim
  | none =>
    simp only
    cases h2 : fromMeters s with
    | some v =>
      simp only [Option.some.injEq]
      obtain ⟨w, x, d, t, o, hw, hx, e, rfl⟩ := (hm v).mp h2
      obtain ⟨_, hM, hR⟩ := meters_shape hw hx
      constructor
      · rintro rfl
        exact Or.inl (Or.inr (Or.inl ⟨w, x, d, t, o, hw, hx, e, rfl⟩))
      · rintro ((h | h | ⟨d, hd, rfl⟩) | ⟨v, _, e2, _⟩)
        · have := (hi g).mpr h
          rw [h1] at this
          cases this
        · have := (hm g).mpr h
          rw [h2] at this
          exact Option.some.inj this
        · obtain ⟨t, e2, _⟩ := miles_end hd
          exact absurd (by rw [← e, e2]; simp) hM
        · obtain ⟨y, hy⟩ := rvr_head v
          exact absurd (by rw [← e, e2, hy]; simp) hR
    | none =>
      simp only
      cases h3 : Distance.fromMileString s with
      | some d =>
        simp only [Option.some.injEq]
        constructor
        · rintro rfl
          exact Or.inl (Or.inr (Or.inr ⟨d, (hs d).mp h3, rfl⟩))
        · rintro ((h | h | ⟨d', hd, rfl⟩) | ⟨v, _, e2, _⟩)
          · have := (hi g).mpr h
            rw [h1] at this
            cases this
          · have := (hm g).mpr h
            rw [h2] at this
            cases this
          · have := (hs d').mpr hd
            rw [h3] at this
            rw [Option.some.inj this]
          · obtain ⟨y, hy⟩ := rvr_head v
            exact absurd (e2.trans hy) (miles_head ((hs d).mp h3) y)
      | none =>
        simp only
        rw [hr]
        constructor
        · exact Or.inr
        · rintro ((h | h | ⟨d', hd, rfl⟩) | h)
          · have := (hi g).mpr h
            rw [h1] at this
            cases this
          · have := (hm g).mpr h
            rw [h2] at this
            cases this
          · have := (hs d').mpr hd
            rw [h3] at this
            cases this
          · exact h

/-- C47. Visibility in a forecast: as in a weather report, but no runway visual range. -/
theorem C47_taf (s : Str) (g : VisibilityGroup) :
    VisibilityGroup.parse s .TAF = some g ↔ BodyVisibility s g := by
  have hi := incompleteInteger_iff s
  have hm := C47_visibility_meters s
  have hs := C32_miles s
  have hM := C47_metar s g
  have hR : (∃ v : RvrText, v.Ok ∧ s = v.text ∧ g = v.group) → ¬ BodyVisibility s g := by
    rintro ⟨v, _, rfl, rfl⟩ (⟨k, n, _, _, e, _⟩ | ⟨w, x, d, t, o, hw, hx, e, _⟩ | ⟨d, hd, _⟩)
    all_goals obtain ⟨y, hy⟩ := rvr_head v
    · have : isDigit 'R' = true := decimal_digits k n 'R' (by rw [← e, hy]; simp)
      cases this
    · exact absurd (by rw [← e, hy]; simp) (meters_shape hw hx).2.2
    · exact miles_head hd y hy
  constructor
  · intro h
    have hp : VisibilityGroup.parse s .METAR = some g := by
      unfold VisibilityGroup.parse at h ⊢
      simp only at h ⊢
      cases h1 : fromIncompleteInteger s <;> simp only [h1] at h ⊢
      · cases h2 : fromMeters s <;> simp only [h2] at h ⊢
        · cases h3 : Distance.fromMileString s <;> simp only [h3] at h ⊢
          · cases h
          · exact h
        · exact h
      · exact h
    rcases hM.mp hp with h' | h'
    · exact h'
    · exfalso
      obtain ⟨v, hv, e, e2⟩ := h'
      obtain ⟨y, hy⟩ := rvr_head v
      unfold VisibilityGroup.parse at h
      simp only at h
      cases h1 : fromIncompleteInteger s with
      | some a => exact hR ⟨v, hv, e, e2⟩ (by
          simp only [h1] at h
          exact Or.inl ((hi g).mp (h1.trans h)))
      | none =>
        simp only [h1] at h
        cases h2 : fromMeters s with
        | some a => exact hR ⟨v, hv, e, e2⟩ (by
            simp only [h2] at h
            exact Or.inr (Or.inl ((hm g).mp (h2.trans h))))
        | none =>
          simp only [h2] at h
          cases h3 : Distance.fromMileString s with
          | some a => exact miles_head ((hs a).mp h3) y (e.trans hy)
          | none => simp only [h3] at h; cases h
  · intro hb
    have h := hM.mpr (Or.inl hb)
    unfold VisibilityGroup.parse at h ⊢
    simp only at h ⊢
    cases h1 : fromIncompleteInteger s <;> simp only [h1] at h ⊢
    · cases h2 : fromMeters s <;> simp only [h2] at h ⊢
      · cases h3 : Distance.fromMileString s <;> simp only [h3] at h ⊢
        · rw [C47_runway_visual_range] at h
          exact absurd hb (hR h)
        · exact h
      · exact h
    · exact h

theorem mileText_bound {t : Str} {q : Rat} (h : MileText t q) : ⌊q * 10000⌋₊ ≤ 1000000 := by
  have hq : q ≤ 100 := by
    rcases h with ⟨k, n, hk, hn, -, rfl⟩ | ⟨i, j, a, b, hi, hj, ha, hb, -, ha0, hb0, h⟩
    · have : n ≤ 100 := by rcases hk with rfl | rfl <;> omega
      exact_mod_cast this
    · have hb' : (1 : Rat) ≤ b := by exact_mod_cast hb0
      rcases h with ⟨hab, rfl⟩ | ⟨-, -, rfl⟩
      · have : (a : Rat) / b ≤ 1 := by
          rw [div_le_one (by linarith)]
          exact_mod_cast hab.le
        linarith
      · have h1 : a / 10 ≤ 10 := by rcases hi with rfl | rfl <;> omega
        have h2 : a % 10 ≤ 10 := by omega
        have h1' : ((a / 10 : Nat) : Rat) ≤ 10 := by exact_mod_cast h1
        have h2' : ((a % 10 : Nat) : Rat) ≤ 10 := by exact_mod_cast h2
        have h3 : ((a % 10 : Nat) : Rat) / b ≤ (a % 10 : Nat) := div_le_self (by positivity) hb'
        linarith
  apply Nat.floor_le_of_le
  push_cast
  linarith

/-- C47. A whole number of miles followed by a fraction of a mile is the sum, and the group is
complete then. -/
theorem C47_fraction (n : Nat) (hn : n < 100) (s : Str) (g : VisibilityGroup) :
    VisibilityGroup.append
        { vis := ⟨.NONE, some (10000 * n), .STATUTE_MILES⟩, incompleteText := .INTEGER } s
        = (g, .APPENDED) ↔
      ∃ f, MilesGroup s ⟨.NONE, some f, .STATUTE_MILES⟩ ∧ f % 10000 ≠ 0 ∧
        g = { vis := ⟨.NONE, some (10000 * n + f), .STATUTE_MILES⟩ } := by
  simp only [VisibilityGroup.append, firstOf, appendFractionToIncompleteInteger, visibility, isVariable]
  cases h3 : Distance.fromMileString s with
  | none =>
    simp only [Prod.mk.injEq, reduceCtorEq, and_false, false_iff]
    rintro ⟨f, hd, _⟩
    have := (C32_miles s _).mpr hd
    rw [h3] at this
    cases this
  | some d =>
    have hd := (C32_miles s d).mp h3
    have hu : ∀ d', MilesGroup s d' → d' = d := by
      intro d' h
      have := (C32_miles s d').mpr h
      rw [h3] at this
      exact (Option.some.inj this).symm
    simp only [Bool.false_eq_true, if_false]
    cases h4 : Distance.fromIntegerAndFraction ⟨.NONE, some (10000 * n), .STATUTE_MILES⟩ d with
    | none =>
      simp only [Prod.mk.injEq, reduceCtorEq, and_false, false_iff]
      rintro ⟨f, hf, h0, _⟩
      rw [← hu _ hf] at h4
      unfold Distance.fromIntegerAndFraction at h4
      simp [statuteMileFactor, h0] at h4
    | some e =>
      obtain ⟨-, hyu, hzu, hym, hzm, i, f, hi, hf, -, h0, hsum⟩ := C32_sum_only _ _ _ h4
      simp only [Option.some.injEq] at hi
      subst hi
      obtain ⟨dm, dd, du⟩ := d
      obtain ⟨em, ed, eu⟩ := e
      simp only at hyu hzu hym hzm hf hsum
      subst hyu hzu hym hzm hf
      have hb : f ≤ 1000000 := by
        rcases hd with ⟨_, h⟩ | ⟨p, t, m, q, _, _, ht, h⟩
        · cases h
        · simp only [Distance.mk.injEq, Option.some.injEq] at h
          rw [h.2.1]
          exact mileText_bound ht
      rw [hsum (by omega)]
      simp only [Prod.mk.injEq, and_true]
      constructor
      · rintro rfl
        exact ⟨f, hd, h0, rfl⟩
      · rintro ⟨f', hf', _, rfl⟩
        have := hu _ hf'
        simp only [Distance.mk.injEq, Option.some.injEq, true_and, and_true] at this
        rw [this]

/-- C47. If no fraction of a mile follows, a whole number of miles is not a visibility. -/
theorem C47_fraction_needed (n : Nat) (hn : n < 100) (s : Str)
    (h : ∀ f, MilesGroup s ⟨.NONE, some f, .STATUTE_MILES⟩ → f % 10000 = 0) :
    (VisibilityGroup.append
        { vis := ⟨.NONE, some (10000 * n), .STATUTE_MILES⟩, incompleteText := .INTEGER } s).2 =
      .GROUP_INVALIDATED := by
  generalize hr : VisibilityGroup.append
    { vis := ⟨.NONE, some (10000 * n), .STATUTE_MILES⟩, incompleteText := .INTEGER } s = r
  obtain ⟨g, a⟩ := r
  have key : ∀ g, VisibilityGroup.append
      { vis := ⟨.NONE, some (10000 * n), .STATUTE_MILES⟩, incompleteText := .INTEGER } s
        ≠ (g, .APPENDED) := by
    intro g hg
    obtain ⟨f, hf, h0, _⟩ := (C47_fraction n hn s g).mp hg
    exact h0 (h f hf)
  have hr' := hr
  simp only [VisibilityGroup.append, firstOf] at hr
  split at hr
  · rename_i g' hg'
    exfalso
    apply key g'
    simp only [VisibilityGroup.append, firstOf, hg']
  · exact (Prod.mk.inj hr).2.symm

/-- C47. The words which begin a remark on visibility. -/
theorem C47_remark (s : Str) (g : VisibilityGroup) :
    VisibilityGroup.parse s .RMK = some g ↔
      (s, g) ∈ ([(c!"VIS", { visType := .PREVAILING, incompleteText := .VIS }),
        (c!"SFC", { visType := .SURFACE, incompleteText := .SFC_OR_TWR }),
        (c!"TWR", { visType := .TOWER, incompleteText := .SFC_OR_TWR }),
        (c!"RVRNO", { visType := .RVRNO, incompleteText := .NONE }),
        (c!"VISNO", { visType := .VISNO, incompleteText := .VISNO }),
        (c!"RVR", { visType := .RVR_MISG, incompleteText := .RVR })] : List (Str × VisibilityGroup)) := by
  simp only [List.mem_cons, Prod.mk.injEq, List.not_mem_nil, or_false]
  constructor
  · intro h
    unfold VisibilityGroup.parse at h
    simp only at h
    ite_cases h
    all_goals first
      | (obtain rfl := Option.some.inj h; simp_all)
      | cases h
  · rintro (⟨rfl, rfl⟩ | ⟨rfl, rfl⟩ | ⟨rfl, rfl⟩ | ⟨rfl, rfl⟩ | ⟨rfl, rfl⟩ | ⟨rfl, rfl⟩) <;> rfl

/-- C47. Visibility is not looked for elsewhere. -/
theorem C47_elsewhere (s : Str) (p : ReportPart) (h : p ≠ .METAR ∧ p ≠ .TAF ∧ p ≠ .RMK) :
    VisibilityGroup.parse s p = none := by
  cases p <;> first | rfl | simp at h

/-! ### Cases -/

/-- More than 10 km. -/
example : ∃ v x d t o, MeterText v d ∧ SuffixText x t o ∧ c!"9999NDV" = v ++ x ∧
    t = .PREVAILING_NDV ∧ d = ⟨.MORE_THAN, some 10000, .METERS⟩ :=
  ⟨c!"9999", c!"NDV", _, _, _, Or.inr (Or.inl ⟨rfl, rfl⟩), Or.inr (Or.inr (Or.inl ⟨rfl, rfl, rfl⟩)),
    rfl, rfl, rfl⟩

/-- Runway 04 left, 1200 to more than 2000 ft, no trend reported. -/
def rvrCase : RvrText :=
  ⟨some ⟨4, .LEFT⟩, some (.exact, 1200), some (.above, 2000), true, true, .NOT_REPORTED⟩

example : rvrCase.Ok ∧ rvrCase.text = c!"R04L/1200VP2000FT//" := by decide

example : fromRvr c!"R04L/1200VP2000FT//" =
    some { visType := .VARIABLE_RVR, rw := some ⟨4, .LEFT⟩
           vis := ⟨.NONE, some 1200, .FEET⟩
           visMax := ⟨.MORE_THAN, some 2000, .FEET⟩
           rvrTrend := .NOT_REPORTED } :=
  (C47_runway_visual_range _ _).mpr ⟨rvrCase, by decide, by decide, rfl⟩

/-- A single slash after the unit is the separator. -/
example : fromRvr c!"R04/1500FT/" =
    some { visType := .RVR, rw := some ⟨4, .NONE⟩
           vis := ⟨.NONE, some 1500, .FEET⟩
           rvrTrend := .NONE } :=
  (C47_runway_visual_range _ _).mpr
    ⟨⟨some ⟨4, .NONE⟩, some (.exact, 1500), none, true, true, .NONE⟩, by decide, by decide, rfl⟩

example : VisibilityGroup.parse c!"2000SW" .METAR =
    some { vis := ⟨.NONE, some 2000, .METERS⟩, visType := .DIRECTIONAL,
           dir := some ⟨225, .VALUE_CARDINAL⟩ } :=
  (C47_metar _ _).mpr (Or.inl (Or.inr (Or.inl ⟨c!"2000", c!"SW", _, _, _,
    Or.inr (Or.inr ⟨2000, by decide, by decide, rfl⟩),
    Or.inr (Or.inl ⟨225, by decide, rfl, rfl⟩), rfl, rfl⟩)))

/-- One and a half miles. -/
example : MilesGroup c!"1/2SM" ⟨.NONE, some 5000, .STATUTE_MILES⟩ := by
  refine Or.inr ⟨[], c!"1/2", .NONE, 1 / 2, rfl, Or.inl ⟨rfl, rfl⟩, Or.inr ⟨1, 1, 1, 2, Or.inl rfl,
    Or.inl rfl, by decide, by decide, by decide, by decide, by decide, Or.inl ⟨by decide, by norm_num⟩⟩, ?_⟩
  norm_num

end Metaf.Props
