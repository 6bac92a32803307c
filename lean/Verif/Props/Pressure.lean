import Verif.Model.GroupsC
import Verif.Proofs.RegexText
import Verif.Props.Amounts
import Verif.Props.MinMax

/-!
C52: pressure groups. C53: pressure tendency groups.
-/

set_option linter.unusedSectionVars false

namespace Metaf.Props

open Metaf.Spec

variable [FloatSem]

/-! ### C52 -/

/-- Pressure as written in the body of a weather report, with the value it stands for. -/
def QnhWritten (s : Str) (p : Pressure) : Prop :=
  (s = c!"A////" ∧ p = ⟨none, .INCHES_HG⟩) ∨ (s = c!"Q////" ∧ p = ⟨none, .HECTOPASCAL⟩) ∨
  (∃ n, n < 10000 ∧ s = 'A' :: decimal 4 n ∧ p = ⟨some (inHgOf n), .INCHES_HG⟩) ∨
  (∃ n, n < 10000 ∧ s = 'Q' :: decimal 4 n ∧ p = ⟨some n, .HECTOPASCAL⟩)

/-- C52: pressure in the body of a weather report. -/
theorem C52_body (s : Str) (g : PressureGroup) :
    PressureGroup.parse s .METAR = some g ↔ ∃ p, QnhWritten s p ∧ g = ⟨.OBSERVED_QNH, p, false⟩ := by
  have h : ∀ p, QnhWritten s p ↔ Pressure.fromString s = some p := fun p => (C36_pressure s p).symm
  simp only [h, PressureGroup.parse]
  cases hp : Pressure.fromString s with
  | none => simp
  | some p => simp [eq_comm]

/-- C52: pressure in the body of a forecast. -/
theorem C52_forecast (s : Str) (g : PressureGroup) :
    PressureGroup.parse s .TAF = some g ↔
      ∃ n, n < 10000 ∧ s = c!"QNH" ++ decimal 4 n ++ c!"INS" ∧
        g = ⟨.FORECAST_LOWEST_QNH, ⟨some (inHgOf n), .INCHES_HG⟩, false⟩ := by
  simp only [PressureGroup.parse]
  cases hp : Pressure.fromForecastString s with
  | none =>
    simp only [reduceCtorEq, false_iff]
    rintro ⟨n, hn, hs, -⟩
    rw [(C36_forecast s _).mpr ⟨n, hn, hs, rfl⟩] at hp
    cases hp
  | some p =>
    obtain ⟨n, hn, hs, rfl⟩ := (C36_forecast s p).mp hp
    simp only [Option.some.injEq]
    constructor
    · rintro rfl; exact ⟨n, hn, hs, rfl⟩
    · rintro ⟨m, hm, hs', rfl⟩
      rw [(C36_forecast s _).mpr ⟨m, hm, hs', rfl⟩] at hp
      rw [Option.some.inj hp]

theorem qnh_head {s : Str} {p : Pressure} (h : QnhWritten s p) :
    s.length = 5 ∧ (s.head? = some 'A' ∨ s.head? = some 'Q') := by
  rcases h with ⟨rfl, -⟩ | ⟨rfl, -⟩ | ⟨n, -, rfl, -⟩ | ⟨n, -, rfl, -⟩ <;> simp [decimal_length]

/-- C52: pressure in remarks. -/
theorem C52_remark (s : Str) (g : PressureGroup) :
    PressureGroup.parse s .RMK = some g ↔
      (∃ p, QnhWritten s p ∧ g = ⟨.OBSERVED_QNH, p, false⟩) ∨
      (s = c!"SLPNO" ∧ g = ⟨.SLPNO, {}, false⟩) ∨
      (s = c!"PRES" ∧ g = ⟨.PRES_MISG, {}, true⟩) ∨
      (∃ n, n < 1000 ∧ s = c!"SLP" ++ decimal 3 n ∧
        g = ⟨.OBSERVED_SLP, ⟨some (slpOf n), .HECTOPASCAL⟩, false⟩) ∨
      (∃ n : Nat, n < 1000 ∧ g = ⟨.OBSERVED_QFE, ⟨some n, .MM_HG⟩, false⟩ ∧
        (s = c!"QFE" ++ decimal 3 n ∨
          ∃ m, m < 10000 ∧ s = c!"QFE" ++ decimal 3 n ++ c!"/" ++ decimal 4 m)) := by
  have hq : ∀ p, QnhWritten s p ↔ Pressure.fromString s = some p := fun p => (C36_pressure s p).symm
  have h1 : (∃ n, n < 1000 ∧ s = c!"SLP" ++ decimal 3 n ∧
        g = ⟨.OBSERVED_SLP, ⟨some (slpOf n), .HECTOPASCAL⟩, false⟩) ↔
      ∃ p, Pressure.fromSlpString s = some p ∧ g = ⟨.OBSERVED_SLP, p, false⟩ := by
    simp only [C36_slp]
    constructor
    · rintro ⟨n, hn, hs, rfl⟩; exact ⟨_, ⟨n, hn, hs, rfl⟩, rfl⟩
    · rintro ⟨_, ⟨n, hn, hs, rfl⟩, rfl⟩; exact ⟨n, hn, hs, rfl⟩
  have h2 : (∃ n : Nat, n < 1000 ∧ g = ⟨.OBSERVED_QFE, ⟨some n, .MM_HG⟩, false⟩ ∧
        (s = c!"QFE" ++ decimal 3 n ∨
          ∃ m, m < 10000 ∧ s = c!"QFE" ++ decimal 3 n ++ c!"/" ++ decimal 4 m)) ↔
      ∃ p, Pressure.fromQfeString s = some p ∧ g = ⟨.OBSERVED_QFE, p, false⟩ := by
    simp only [C36_qfe]
    constructor
    · rintro ⟨n, hn, rfl, hs⟩
      exact ⟨_, ⟨n, hn, rfl, by simpa using hs⟩, rfl⟩
    · rintro ⟨_, ⟨n, hn, rfl, hs⟩, rfl⟩
      exact ⟨n, hn, rfl, by simpa using hs⟩
  have slpHead : ∀ p, Pressure.fromSlpString s = some p → ∃ n, s = c!"SLP" ++ decimal 3 n := by
    intro p h; obtain ⟨n, -, h, -⟩ := (C36_slp s p).mp h; exact ⟨n, h⟩
  have qfeHead : ∀ p, Pressure.fromQfeString s = some p → ∃ r, s = c!"QFE" ++ r ∧ 3 ≤ r.length := by
    intro p h
    obtain ⟨n, -, -, h | ⟨m, -, h⟩⟩ := (C36_qfe s p).mp h
    · exact ⟨_, h, by simp [decimal_length]⟩
    · rw [List.append_assoc] at h
      exact ⟨_, h, by simp [decimal_length]⟩
  rw [h1, h2]
  simp only [PressureGroup.parse]
  cases hp : Pressure.fromString s with
  | some p =>
    obtain ⟨hl, hh⟩ := qnh_head ((hq p).mpr hp)
    have a1 : s ≠ c!"SLPNO" := by rintro rfl; simp at hh
    have a2 : s ≠ c!"PRES" := by rintro rfl; simp at hh
    have a3 : ∀ q, Pressure.fromSlpString s ≠ some q := by
      intro q h
      obtain ⟨n, rfl⟩ := slpHead q h
      simp at hh
    have a4 : ∀ q, Pressure.fromQfeString s ≠ some q := by
      intro q h
      obtain ⟨r, rfl, hr⟩ := qfeHead q h
      simp at hl
      omega
    simp [hq, hp, a1, a2, a3, a4, eq_comm]
  | none =>
    have a0 : ∀ p, ¬ QnhWritten s p := fun p h => by rw [hq, hp] at h; cases h
    by_cases b1 : s = c!"SLPNO"
    · have a3 : ∀ q, Pressure.fromSlpString s ≠ some q := by
        intro q h
        obtain ⟨n, h⟩ := slpHead q h
        have hl := congrArg List.length h
        simp [b1, decimal_length] at hl
      have a4 : ∀ q, Pressure.fromQfeString s ≠ some q := by
        intro q h
        obtain ⟨r, h, -⟩ := qfeHead q h
        simp [b1] at h
      rw [b1] at a3 a4
      simp [b1, a3, a4, eq_comm]
      intro x hx
      exact absurd (b1 ▸ hx) (a0 x)
    · by_cases b2 : s = c!"PRES"
      · have a3 : ∀ q, Pressure.fromSlpString s ≠ some q := by
          intro q h
          obtain ⟨n, h⟩ := slpHead q h
          simp [b2] at h
        have a4 : ∀ q, Pressure.fromQfeString s ≠ some q := by
          intro q h
          obtain ⟨r, h, -⟩ := qfeHead q h
          simp [b2] at h
        rw [b2] at a3 a4
        simp [b2, a3, a4, eq_comm]
        intro x hx
        exact absurd (b2 ▸ hx) (a0 x)
      · cases hs : Pressure.fromSlpString s with
        | some p =>
          obtain ⟨n, e⟩ := slpHead p hs
          have a4 : ∀ q, Pressure.fromQfeString s ≠ some q := by
            intro q h
            obtain ⟨r, h, -⟩ := qfeHead q h
            rw [e] at h
            simp at h
          simp [a0, b1, b2, a4, eq_comm]
        | none =>
          cases hf : Pressure.fromQfeString s with
          | none => simp [a0, b1, b2]
          | some p => simp [a0, b1, b2, eq_comm]

/-- C52: elsewhere pressure is not looked for. -/
theorem C52_elsewhere (s : Str) (part : ReportPart) (h1 : part ≠ .METAR) (h2 : part ≠ .TAF)
    (h3 : part ≠ .RMK) : PressureGroup.parse s part = none := by
  cases part <;> simp_all [PressureGroup.parse]

/-- C52: `PRES` must be followed by `MISG`, which completes it; any other text undoes it. No other
pressure group takes further text. -/
theorem C52_append (first s : Str) (part : ReportPart) (g : PressureGroup)
    (h : PressureGroup.parse first part = some g) :
    (first ≠ c!"PRES" → g.append s = (g, .NOT_APPENDED) ∧ g.isValid = true) ∧
    (first = c!"PRES" → s ≠ c!"MISG" → g.append s = (g, .GROUP_INVALIDATED)) ∧
    (first = c!"PRES" → s = c!"MISG" → g.append s = (⟨.PRES_MISG, {}, false⟩, .APPENDED)) := by
  have cases2 : (first = c!"PRES" ∧ g = ⟨.PRES_MISG, {}, true⟩) ∨
      (first ≠ c!"PRES" ∧ g.isIncomplete = false) := by
    have hqnh : ∀ {p}, QnhWritten first p → first ≠ c!"PRES" := by
      intro p h e
      have := (qnh_head h).1
      rw [e] at this
      simp at this
    cases part with
    | METAR =>
      obtain ⟨p, hq, rfl⟩ := (C52_body _ _).mp h
      exact Or.inr ⟨hqnh hq, rfl⟩
    | TAF =>
      obtain ⟨n, -, rfl, rfl⟩ := (C52_forecast _ _).mp h
      exact Or.inr ⟨by simp, rfl⟩
    | RMK =>
      rcases (C52_remark _ _).mp h with
        ⟨p, hq, rfl⟩ | ⟨rfl, rfl⟩ | hp | ⟨n, -, rfl, rfl⟩ | ⟨n, -, rfl, hq⟩
      · exact Or.inr ⟨hqnh hq, rfl⟩
      · exact Or.inr ⟨by simp, rfl⟩
      · exact Or.inl hp
      · exact Or.inr ⟨by simp, rfl⟩
      · refine Or.inr ⟨?_, rfl⟩
        rintro rfl
        simp at hq
    | HEADER => cases h
    | UNKNOWN => cases h
  rcases cases2 with ⟨rfl, rfl⟩ | ⟨h1, h2⟩
  · refine ⟨by simp, fun _ hs => by simp [PressureGroup.append, hs], ?_⟩
    rintro - rfl; rfl
  · exact ⟨fun _ => ⟨by simp [PressureGroup.append, h2], by simp [PressureGroup.isValid, h2]⟩,
      fun h => absurd h h1, fun h => absurd h h1⟩

/-- C52: a complete pressure group takes no further text. -/
theorem C52_complete (s : Str) (g : PressureGroup) (h : g.isIncomplete = false) :
    g.append s = (g, .NOT_APPENDED) := by
  simp [PressureGroup.append, h]

example : ∃ g, PressureGroup.parse c!"Q1013" .METAR = some g :=
  ⟨_, (C52_body _ _).mpr ⟨_, Or.inr (Or.inr (Or.inr ⟨1013, by decide, rfl, rfl⟩)), rfl⟩⟩
example : ∃ g, PressureGroup.parse c!"QNH2979INS" .TAF = some g :=
  ⟨_, (C52_forecast _ _).mpr ⟨2979, by decide, rfl, rfl⟩⟩
example : ∃ g, PressureGroup.parse c!"SLP982" .RMK = some g :=
  ⟨_, (C52_remark _ _).mpr (Or.inr (Or.inr (Or.inr (Or.inl ⟨982, by decide, rfl, rfl⟩))))⟩
example : ∃ g, PressureGroup.parse c!"PRES" .RMK = some g ∧
    g.append c!"MISG" = (⟨.PRES_MISG, {}, false⟩, .APPENDED) :=
  ⟨_, (C52_remark _ _).mpr (Or.inr (Or.inr (Or.inl ⟨rfl, rfl⟩))), rfl⟩
example : PressureGroup.parse c!"Q1013" .HEADER = none :=
  C52_elsewhere _ _ (by decide) (by decide) (by decide)

/-! ### C53 -/

/-- Pressure tendency by its code (WMO code table 0200). -/
def tendencyCode : List PressureTendencyType :=
  [.INCREASING_THEN_DECREASING, .INCREASING_MORE_SLOWLY, .INCREASING, .INCREASING_MORE_RAPIDLY,
   .STEADY, .DECREASING_THEN_INCREASING, .DECREASING_MORE_SLOWLY, .DECREASING, .DECREASING_MORE_RAPIDLY]

/-- First character after `5`: the code or a slash. -/
def TendencyWritten (c : Char) (t : PressureTendencyType) : Prop :=
  (c = '/' ∧ t = .NOT_REPORTED) ∨ ∃ k, tendencyCode[k]? = some t ∧ c = Nat.digitChar k

/-- The pressure difference: three digits in tenths of hPa or slashes. -/
def DifferenceWritten (s : Str) (p : Pressure) : Prop :=
  (s = c!"///" ∧ p = ⟨none, .HECTOPASCAL⟩) ∨
  ∃ n, n < 1000 ∧ s = decimal 3 n ∧ p = ⟨some (tendencyOf n), .HECTOPASCAL⟩

theorem typeFromChar_iff (c : Char) (t : PressureTendencyType) :
    PressureTendencyGroup.typeFromChar c = some t ↔ TendencyWritten c t := by
  unfold TendencyWritten
  constructor
  · intro h
    unfold PressureTendencyGroup.typeFromChar at h
    repeat' split at h
    all_goals first
      | cases h; done
      | skip
    all_goals rename_i hc
    all_goals obtain rfl := Option.some.inj h
    all_goals subst hc
    · exact Or.inr ⟨0, rfl, rfl⟩
    · exact Or.inr ⟨1, rfl, rfl⟩
    · exact Or.inr ⟨2, rfl, rfl⟩
    · exact Or.inr ⟨3, rfl, rfl⟩
    · exact Or.inr ⟨4, rfl, rfl⟩
    · exact Or.inr ⟨5, rfl, rfl⟩
    · exact Or.inr ⟨6, rfl, rfl⟩
    · exact Or.inr ⟨7, rfl, rfl⟩
    · exact Or.inr ⟨8, rfl, rfl⟩
    · exact Or.inl ⟨rfl, rfl⟩
  · rintro (⟨rfl, rfl⟩ | ⟨k, hk, rfl⟩)
    · rfl
    · have hk9 : k < 9 := by
        have := (List.getElem?_eq_some_iff.mp hk).1
        simpa [tendencyCode] using this
      revert hk
      revert t
      revert k
      decide

theorem tendency_match (s : Str) (c : Caps) :
    PressureTendencyGroup.rgx.Match s c ↔ ∃ f : Char × Str,
      ((f.1 = '/' ∨ isDigit f.1 = true) ∧ (f.2 = c!"///" ∨ ∃ n < 1000, f.2 = decimal 3 n)) ∧
      s = c!"5" ++ [f.1] ++ f.2 ∧ c = [(2, f.2), (1, [f.1])] := by
  have hset : ∀ x : Char, Rx.inSet [('0', '9'), ('/', '/')] x = true ↔ (x = '/' ∨ isDigit x = true) := by
    intro x
    simp only [Rx.inSet, List.any_cons, List.any_nil, Bool.or_false, Bool.or_eq_true, Bool.and_eq_true,
      decide_eq_true_eq, isDigit]
    rw [or_comm]
    refine or_congr_left ⟨fun h => ?_, fun h => by subst h; decide⟩
    exact Char.ext (UInt32.toNat_inj.mp (le_antisymm h.2 h.1))
  simp only [PressureTendencyGroup.rgx, Rx.match_seq (a := .chr _), Rx.match_seq (a := .cap _ _),
    Rx.match_chr, Rx.match_cap, Rx.match_alt, Rx.match_digits3, Rx.match_lit, Rx.match_set, hset]
  constructor
  · rintro ⟨_, _, _, _, ⟨rfl, rfl⟩, ⟨_, _, _, _, ⟨_, ⟨x, hx, rfl, rfl⟩, rfl⟩,
      ⟨_, h, rfl⟩, rfl, rfl⟩, rfl, rfl⟩
    rcases h with ⟨rfl, n, hn, rfl⟩ | ⟨rfl, rfl⟩
    · exact ⟨(x, decimal 3 n), ⟨hx, Or.inr ⟨n, hn, rfl⟩⟩, rfl, rfl⟩
    · exact ⟨(x, c!"///"), ⟨hx, Or.inl rfl⟩, rfl, rfl⟩
  · rintro ⟨⟨x, r⟩, ⟨hx, hr⟩, rfl, rfl⟩
    refine ⟨_, _, _, _, ⟨rfl, rfl⟩, ⟨[x], r, _, _, ⟨_, ⟨x, hx, rfl, rfl⟩, rfl⟩,
      ⟨[], ?_, rfl⟩, rfl, rfl⟩, rfl, rfl⟩
    rcases hr with rfl | ⟨n, hn, rfl⟩
    · exact Or.inr ⟨rfl, rfl⟩
    · exact Or.inl ⟨rfl, n, hn, rfl⟩

/-- C53: pressure tendency in remarks: rapid change, or `5` with code and difference of pressure. -/
theorem C53_tendency (s : Str) (g : PressureTendencyGroup) :
    PressureTendencyGroup.parse s .RMK = some g ↔
      (s = c!"PRESRR" ∧ g = ⟨.RISING_RAPIDLY, {}⟩) ∨ (s = c!"PRESFR" ∧ g = ⟨.FALLING_RAPIDLY, {}⟩) ∨
      ∃ c r t p, TendencyWritten c t ∧ DifferenceWritten r p ∧ s = c!"5" ++ [c] ++ r ∧ g = ⟨t, p⟩ := by
  have hd : ∀ r p, DifferenceWritten r p ↔ Pressure.fromTendencyString r = some p :=
    fun r p => (C36_tendency r p).symm
  have hr := regexMatch_form tendency_match (fun f f' _ _ h => by
    simp only [List.cons_append, List.nil_append, List.cons.injEq, true_and] at h
    rw [h.1, h.2])
  have okOf : ∀ {c r t p}, TendencyWritten c t → DifferenceWritten r p →
      (c = '/' ∨ isDigit c = true) ∧ (r = c!"///" ∨ ∃ n < 1000, r = decimal 3 n) := by
    intro c r t p h1 h2
    constructor
    · rcases h1 with ⟨rfl, -⟩ | ⟨k, hk, rfl⟩
      · exact Or.inl rfl
      · have hk9 : k < 9 := by
          have := (List.getElem?_eq_some_iff.mp hk).1
          simpa [tendencyCode] using this
        exact Or.inr (digitChar_isDigit (by omega))
    · rcases h2 with ⟨rfl, -⟩ | ⟨n, hn, rfl, -⟩
      · exact Or.inl rfl
      · exact Or.inr ⟨n, hn, rfl⟩
  have unfolded : ∀ c r, ((c = '/' ∨ isDigit c = true) ∧ (r = c!"///" ∨ ∃ n < 1000, r = decimal 3 n)) →
      PressureTendencyGroup.parse (c!"5" ++ [c] ++ r) .RMK =
        match PressureTendencyGroup.typeFromChar c with
        | none => none
        | some t =>
          match Pressure.fromTendencyString r with
          | none => none
          | some p => some ⟨t, p⟩ := by
    intro c r hok
    unfold PressureTendencyGroup.parse
    rw [if_neg (by simp), if_neg (by simp), if_neg (by simp),
      (hr _ _).mpr ⟨(c, r), hok, rfl, rfl⟩]
    rfl
  constructor
  · intro h
    by_cases h1 : s = c!"PRESRR"
    · subst h1; exact Or.inl ⟨rfl, (Option.some.inj h).symm⟩
    · by_cases h2 : s = c!"PRESFR"
      · subst h2; exact Or.inr (Or.inl ⟨rfl, (Option.some.inj h).symm⟩)
      · refine Or.inr (Or.inr ?_)
        cases hm : regexMatch PressureTendencyGroup.rgx s with
        | none => simp [PressureTendencyGroup.parse, h1, h2, hm] at h
        | some m =>
          obtain ⟨⟨c, r⟩, hok, rfl, -⟩ := (hr s m).mp hm
          rw [unfolded c r hok] at h
          cases ht : PressureTendencyGroup.typeFromChar c with
          | none => simp [ht] at h
          | some t =>
            cases hp : Pressure.fromTendencyString r with
            | none => simp [ht, hp] at h
            | some p =>
              simp only [ht, hp, Option.some.injEq] at h
              exact ⟨c, r, t, p, (typeFromChar_iff c t).mp ht, (hd r p).mpr hp, rfl, h.symm⟩
  · rintro (⟨rfl, rfl⟩ | ⟨rfl, rfl⟩ | ⟨c, r, t, p, h1, h2, rfl, rfl⟩)
    · rfl
    · rfl
    · rw [unfolded c r (okOf h1 h2), (typeFromChar_iff c t).mpr h1, (hd r p).mp h2]

/-- C53: elsewhere pressure tendency is not looked for, and it takes no further text. -/
theorem C53_elsewhere (s : Str) (part : ReportPart) (h : part ≠ .RMK) :
    PressureTendencyGroup.parse s part = none := by
  simp [PressureTendencyGroup.parse, h]

theorem C53_append (s : Str) (g : PressureTendencyGroup) : g.append s = (g, .NOT_APPENDED) := rfl

/-- C53: the trend told by the code: codes 1 to 3 mean a higher pressure than three hours before,
0 higher or the same, 4 the same, 5 lower or the same, 6 to 8 lower. -/
theorem C53_trend (k : Nat) (t : PressureTendencyType) (h : tendencyCode[k]? = some t) :
    (PressureTendencyGroup.trend t = .HIGHER ↔ 1 ≤ k ∧ k ≤ 3) ∧
    (PressureTendencyGroup.trend t = .HIGHER_OR_SAME ↔ k = 0) ∧
    (PressureTendencyGroup.trend t = .SAME ↔ k = 4) ∧
    (PressureTendencyGroup.trend t = .LOWER_OR_SAME ↔ k = 5) ∧
    (PressureTendencyGroup.trend t = .LOWER ↔ 6 ≤ k) ∧
    PressureTendencyGroup.trend t ≠ .NOT_REPORTED := by
  have hk9 : k < 9 := by
    have := (List.getElem?_eq_some_iff.mp h).1
    simpa [tendencyCode] using this
  revert h
  revert t
  revert k
  decide

example : ∃ g, PressureTendencyGroup.parse c!"58033" .RMK = some g :=
  ⟨_, (C53_tendency _ _).mpr (Or.inr (Or.inr ⟨'8', c!"033", _, _, Or.inr ⟨8, rfl, rfl⟩,
    Or.inr ⟨33, by decide, rfl, rfl⟩, rfl, rfl⟩))⟩
example : tendencyCode[8]? = some .DECREASING_MORE_RAPIDLY := rfl

end Metaf.Props

namespace Metaf.Props

attribute [local instance] exactFloat

example : PressureTendencyGroup.parse c!"59033" .RMK = none := by decide +kernel

end Metaf.Props
