import Mathlib.Tactic.Linarith
import Verif.Props.AnyReport
import Verif.Props.Climate

/-!
The greatest numbers a report can hold: a group of a report, whatever its text, has wind of less than
1000 units and degrees, visibility of at most 200 miles or 10000 metres, temperatures of less than 100
degrees and pressure of at most 10000 units; the time of release has two digits for day, hour and minute.
-/

set_option linter.unusedSectionVars false

namespace Metaf.Props

open Metaf Metaf.Spec

variable [FloatIeee]

/-- The numbers of a group are as small as the digits of the formats allow. -/
def Modest : Group → Prop
  | .wind w => (∀ d, w.windDir.degrees = some d → d < 1000) ∧ (∀ n, w.wSpeed.speedValue = some n → n < 1000) ∧
      ∀ n, w.gSpeed.speedValue = some n → n < 1000
  | .visibility v => ∀ n, v.vis.dist = some n →
      n ≤ 10000 ∨ (v.vis.distUnit = .STATUTE_MILES ∧ n ≤ 2000000)
  | .temperature t => (∀ n, tenths t.t = some n → |n| < 1000) ∧ ∀ n, tenths t.dp = some n → |n| < 1000
  | .minMaxTemperature t =>
      (∀ n, tenths t.minTemp = some n → |n| < 1000) ∧ ∀ n, tenths t.maxTemp = some n → |n| < 1000
  | .pressure p => ∀ q, p.p.pressureValue = some q → 0 ≤ q ∧ q ≤ 10000
  | .reportTime t => ∃ d h m, d < 100 ∧ h < 100 ∧ m < 100 ∧ t.t = ⟨some d, h, m⟩
  | _ => True

/-! ### Wind -/

theorem speedOf_modest {o : Option Nat} {u : SpeedUnit} (h : ∀ n ∈ o, n < 1000) :
    ∀ n, (WindText.speedOf o u).speedValue = some n → n < 1000 := by
  intro n hn
  cases o with
  | none => cases hn
  | some m => cases hn; exact h _ rfl

theorem direction_modest {d : WindDirection} (h : d.Ok) :
    ∀ n, d.direction.degrees = some n → n < 1000 := by
  intro n hn
  cases d with
  | tens m => 
    cases hn
    have : m < 100 := h
    show 10 * m < 1000
    omega
  | _ => cases hn

theorem windText_modest {w : WindText} (h : w.Ok) : Modest (.wind w.group) := by
  obtain ⟨-, h1, h2, h3, -⟩ := h
  unfold WindText.group
  split
  · exact ⟨(fun d hd => nomatch hd), speedOf_modest h2, (fun d hd => nomatch hd)⟩
  · exact ⟨direction_modest h1, speedOf_modest h2, speedOf_modest h3⟩

theorem wind_modest {p : ReportPart} {now : Option Nat} {ws : List Str} {g : WindGroup}
    (h : WindSequence p now ws g) : Modest (.wind g) := by
  cases h with
  | wind _ h => exact windText_modest h
  | windAndSector _ h => exact windText_modest h
  | peakWind _ hd hv =>
    refine ⟨fun n hn => ?_, fun n hn => ?_, (fun d hd => nomatch hd)⟩
    · cases hn; show 10 * _ < 1000; omega
    · cases hn; exact hv
  | _ => exact ⟨(fun d hd => nomatch hd), (fun d hd => nomatch hd), (fun d hd => nomatch hd)⟩

/-! ### Visibility -/

theorem mileText_le {t : Str} {q : Rat} (h : MileText t q) : 0 ≤ q ∧ q ≤ 100 := by
  rcases h with ⟨k, n, hk, hn, -, rfl⟩ | ⟨i, j, a, b, hi, hj, ha, hb, -, ha0, hb0, h⟩
  · refine ⟨by positivity, ?_⟩
    have : n ≤ 100 := by rcases hk with rfl | rfl <;> omega
    exact_mod_cast this
  · have hb' : (1 : Rat) ≤ b := by exact_mod_cast hb0
    have ha' : a ≤ 99 := by rcases hi with rfl | rfl <;> omega
    rcases h with ⟨hab, rfl⟩ | ⟨-, -, rfl⟩
    · refine ⟨by positivity, ?_⟩
      rw [div_le_iff₀ (by linarith)]
      have : (a : Rat) ≤ b := by exact_mod_cast hab.le
      linarith
    · refine ⟨by positivity, ?_⟩
      have h1 : ((a % 10 : Nat) : Rat) / b ≤ 9 := by
        rw [div_le_iff₀ (by linarith)]
        have : ((a % 10 : Nat) : Rat) ≤ 9 := by
          have : a % 10 ≤ 9 := by omega
          exact_mod_cast this
        linarith
      have h2 : ((a / 10 : Nat) : Rat) ≤ 9 := by
        have : a / 10 ≤ 9 := by omega
        exact_mod_cast this
      linarith

theorem mileWord_bound {s : Str} {m : Modifier} {q : Rat} (h : MileWord s m q) : 0 ≤ q ∧ q ≤ 100 := by
  obtain ⟨_, _, _, h, _⟩ := h
  exact mileText_le h

theorem fraction_bound {s : Str} {q : Rat} (h : FractionWord s q) : 0 ≤ q ∧ q ≤ 100 := by
  obtain ⟨i, j, a, b, hi, hj, ha, hb, hb0, -, rfl, -⟩ := h
  refine ⟨by positivity, ?_⟩
  have hb' : (1 : Rat) ≤ b := by exact_mod_cast Nat.pos_of_ne_zero hb0
  have ha' : (a : Rat) ≤ 99 := by
    have : a ≤ 99 := by rcases hi with rfl | rfl <;> omega
    exact_mod_cast this
  rw [div_le_iff₀ (by linarith)]
  linarith

/-- At most 200 miles. -/
def ModestDistance (d : Distance) : Prop :=
  ∀ n, d.dist = some n → n ≤ 10000 ∨ (d.distUnit = .STATUTE_MILES ∧ n ≤ 2000000)

theorem miles_modest {m : Modifier} {q : Rat} (h : 0 ≤ q ∧ q ≤ 200) : ModestDistance (mileDistance m q) := by
  intro n hn
  cases hn
  refine Or.inr ⟨rfl, Nat.floor_le_of_le ?_⟩
  push_cast
  linarith [h.2]

theorem minimum_modest {ws : List Str} {a : Str} {v : Distance} (h : Minimum ws a v) : ModestDistance v := by
  cases h with
  | plain h => exact miles_modest (by have := mileWord_bound h; constructor <;> linarith)
  | mixed h1 h2 =>
    have h1 := mileWord_bound h1.1
    have h2 := mileWord_bound h2.1
    exact miles_modest (by constructor <;> linarith)

theorem meterWord_modest {s : Str} {d : Distance} (h : MeterWord s d) : ModestDistance d := by
  rcases h with ⟨-, rfl⟩ | ⟨n, hn, -, rfl⟩
  · intro n hn; cases hn; exact Or.inl (by decide)
  · intro m hm; cases hm; exact Or.inl (by omega)

theorem amount_modest {as : List Str} {k : AmountKind} {v x : Distance} (h : Amount as k v x) :
    ModestDistance v := by
  cases h with
  | whole h => exact miles_modest (by have := mileWord_bound h.1; constructor <;> linarith)
  | part h => exact miles_modest (by have := mileWord_bound h.1; constructor <;> linarith)
  | mixed h1 h2 =>
    have h1 := mileWord_bound h1.1
    have h2 := mileWord_bound h2.1
    exact miles_modest (by constructor <;> linarith)
  | meters h => exact meterWord_modest h
  | rangeWhole h => exact minimum_modest h
  | range h => exact minimum_modest h
  | rangeMixed h => exact minimum_modest h
  | meterRange h => exact meterWord_modest h

theorem visRemark_modest {ws : List Str} {g : VisibilityGroup} (h : VisRemark ws g) :
    Modest (.visibility g) := by
  cases h with
  | visAmount h => exact amount_modest h
  | visAmountRunway h => exact amount_modest h
  | visWhereAmount _ h => exact amount_modest h
  | observerAmount _ h => exact amount_modest h
  | _ => exact fun n hn => nomatch hn

theorem milesGroup_bound {s : Str} {d : Distance} (h : MilesGroup s d) :
    ∀ n, d.dist = some n → d.distUnit = .STATUTE_MILES ∧ n ≤ 1000000 := by
  intro n hn
  rcases h with ⟨-, rfl⟩ | ⟨p, t, m, q, -, -, ht, rfl⟩
  · cases hn
  · cases hn
    refine ⟨rfl, Nat.floor_le_of_le ?_⟩
    have := mileText_le ht
    push_cast
    linarith

theorem bodyVisibility_modest {s : Str} {g : VisibilityGroup} (h : BodyVisibility s g) :
    Modest (.visibility g) := by
  rcases h with ⟨k, n, hk, hn, -, rfl⟩ | ⟨v, x, d, t, o, hv, -, -, rfl⟩ | ⟨d, hd, rfl⟩
  · intro m hm
    cases hm
    have : n < 100 := by rcases hk with rfl | rfl <;> omega
    exact Or.inr ⟨rfl, by omega⟩
  · intro m hm
    rcases hv with ⟨-, rfl⟩ | ⟨-, rfl⟩ | ⟨n, hn, -, rfl⟩
    · cases hm
    · cases hm; exact Or.inl (by decide)
    · cases hm; exact Or.inl (by omega)
  · intro m hm
    obtain ⟨h1, h2⟩ := milesGroup_bound hd m hm
    exact Or.inr ⟨h1, by omega⟩

theorem rvr_modest {v : RvrText} (h : v.Ok) : Modest (.visibility v.group) := by
  intro n hn
  obtain ⟨-, h, -⟩ := h
  have e : v.group.vis = RvrText.distance v.value v.feet := rfl
  rw [e] at hn
  cases hv : v.value with
  | none => rw [hv] at hn; cases hn
  | some x =>
    rw [hv] at hn
    cases hn
    have := h x hv
    exact Or.inl (by omega)

/-! ### Temperature and pressure -/

theorem degrees_modest {d : Degrees} (h : d.Ok) : ∀ n, tenths d.temperature = some n → |n| < 1000 := by
  intro n hn
  match d, h with
  | .missing, _ => cases hn
  | .value true m, h =>
    have h : m < 100 := h
    cases hn
    rw [abs_lt]; simp; omega
  | .value false m, h =>
    have h : m < 100 := h
    cases hn
    rw [abs_lt]; simp; omega

theorem tenths_modest {t : Tenths} (h : t.Ok) : ∀ n, tenths t.temperature = some n → |n| < 1000 := by
  intro n hn
  have h : t.n < 1000 := h
  cases hn
  simp only [Tenths.temperature, if_true, Tenths.tenths]
  rw [abs_lt]
  split <;> omega

theorem forecast_modest {f : ForecastTemperature} (h : f.Ok) :
    ∀ n, tenths f.temperature = some n → |n| < 1000 := by
  intro n hn
  have h : f.degrees < 100 := h.1
  cases hn
  simp only [ForecastTemperature.temperature, Bool.false_eq_true, if_false]
  rw [abs_lt]
  split <;> omega

theorem remark_temperature_modest {b : Bool} {m : Nat} (h : m < 1000) :
    ∀ n, tenths (remarkTemperature b m) = some n → |n| < 1000 := by
  intro n hn
  cases hn
  simp only [remarkTemperature, if_true]
  rw [abs_lt]
  split <;> omega

theorem sixHourly_modest {ws : List Str} {x n : Temperature} (h : SixHourly ws x n) :
    (∀ k, tenths x = some k → |k| < 1000) ∧ ∀ k, tenths n = some k → |k| < 1000 := by
  have e : ∀ k, tenths {} = some k → |k| < 1000 := fun k hk => nomatch hk
  cases h with
  | missing => exact ⟨e, e⟩
  | maximum _ _ h => exact ⟨remark_temperature_modest h, e⟩
  | minimum _ _ h => exact ⟨e, remark_temperature_modest h⟩
  | maxMin _ _ h h' => exact ⟨remark_temperature_modest h, remark_temperature_modest h'⟩
  | minMax _ _ h h' => exact ⟨remark_temperature_modest h', remark_temperature_modest h⟩

theorem inHg_bound {n : Nat} (h : n < 10000) : 0 ≤ inHgOf n ∧ inHgOf n ≤ 10000 := by
  have h1 := (C36_inHg_value n h).1
  have hn : (n : Rat) ≤ 10000 := by exact_mod_cast h.le
  have h1 := abs_le.mp h1
  refine ⟨?_, by linarith [h1.2]⟩
  exact f32_nonneg (mul_nonneg (f32_nonneg (by positivity)) (f32_nonneg (f64_nonneg (by norm_num))))

theorem qnh_modest {s : Str} {p : Pressure} (h : QnhWritten s p) :
    ∀ q, p.pressureValue = some q → 0 ≤ q ∧ q ≤ 10000 := by
  intro q hq
  rcases h with ⟨-, rfl⟩ | ⟨-, rfl⟩ | ⟨n, hn, -, rfl⟩ | ⟨n, hn, -, rfl⟩
  · cases hq
  · cases hq
  · cases hq; exact inHg_bound hn
  · cases hq
    exact ⟨by positivity, by exact_mod_cast hn.le⟩

theorem slp_bound {n : Nat} (h : n < 1000) : 0 ≤ slpOf n ∧ slpOf n ≤ 10000 := by
  obtain ⟨h1, -, h2, h3⟩ := C36_slp_value n h
  have h1 := abs_le.mp h1
  have h2 : (9500 : Rat) ≤ slpTenths n := by exact_mod_cast h2
  have h3 : (slpTenths n : Rat) ≤ 10499 := by exact_mod_cast h3
  constructor <;> linarith [h1.1, h1.2]

/-! ### All groups -/

theorem written_modest {p : ReportPart} {ws : List Str} {g : Group} (h : Written p ws g) : Modest g := by
  cases h with
  | wind h => exact wind_modest h
  | visibility h => exact bodyVisibility_modest h
  | runwayVisualRange _ h => exact rvr_modest h
  | @milesAndFraction k n s f hk hn h =>
    intro m hm
    cases hm
    obtain ⟨h1, h2⟩ := milesGroup_bound h f rfl
    have : n < 100 := by rcases hk with rfl | rfl <;> omega
    exact Or.inr ⟨rfl, by omega⟩
  | @temperature t d _ h1 h2 =>
    refine ⟨degrees_modest h1, ?_⟩
    cases d with
    | none => exact fun n hn => nomatch hn
    | some d => exact degrees_modest (h2 d rfl)
  | pressure _ h => exact qnh_modest h
  | forecastPressure _ h => intro q hq; cases hq; exact inHg_bound h
  | forecastTemperature _ ha h =>
    have e : ∀ k, tenths {} = some k → |k| < 1000 := fun k hk => nomatch hk
    cases h with
    | min => exact ⟨forecast_modest ha, e⟩
    | max => exact ⟨e, forecast_modest ha⟩
    | none => exact ⟨forecast_modest ha, forecast_modest ha⟩
  | forecastTemperatures _ ha hb h =>
    cases h with
    | rising => exact ⟨forecast_modest ha, forecast_modest hb⟩
    | falling => exact ⟨forecast_modest hb, forecast_modest ha⟩
    | minMax => exact ⟨forecast_modest ha, forecast_modest hb⟩
    | maxMin => exact ⟨forecast_modest hb, forecast_modest ha⟩
  | _ => trivial

theorem settled_modest {g : Group} (h : Modest g) : Modest (settled g) := by
  cases g <;> exact h

theorem remark_modest {now : Option Nat} {ws : List Str} {g : Group} (h : Remark now ws g) : Modest g := by
  have e : ∀ k, tenths {} = some k → |k| < 1000 := fun k hk => nomatch hk
  cases h with
  | fixed h =>
    simp only [fixedWords, List.mem_cons, Prod.mk.injEq, List.not_mem_nil, or_false] at h
    rcases h with ⟨-, rfl⟩ | ⟨-, rfl⟩ | ⟨-, rfl⟩ | ⟨-, rfl⟩ | ⟨-, rfl⟩ | ⟨-, rfl⟩ | ⟨-, rfl⟩ <;>
      first | trivial | exact fun q hq => nomatch hq
  | missing h =>
    simp only [missingWords, List.mem_cons, Prod.mk.injEq, List.not_mem_nil, or_false] at h
    rcases h with ⟨-, rfl, -⟩ | ⟨-, rfl, -⟩ | ⟨-, rfl, -⟩ | ⟨-, rfl, -⟩ | ⟨-, rfl, -⟩ | ⟨-, rfl, -⟩ <;>
      first | trivial | exact ⟨e, e⟩ | exact fun q hq => nomatch hq
  | missingSaid h =>
    simp only [missingWords, List.mem_cons, Prod.mk.injEq, List.not_mem_nil, or_false] at h
    rcases h with ⟨-, -, rfl⟩ | ⟨-, -, rfl⟩ | ⟨-, -, rfl⟩ | ⟨-, -, rfl⟩ | ⟨-, -, rfl⟩ | ⟨-, -, rfl⟩ <;>
      first | trivial | exact ⟨e, e⟩ | exact fun q hq => nomatch hq
  | wind h => exact wind_modest h
  | visibility h => exact visRemark_modest h
  | @temperature t d h1 h2 =>
    refine ⟨tenths_modest h1, ?_⟩
    cases d with
    | none => exact fun n hn => nomatch hn
    | some d => exact tenths_modest (h2 d rfl)
  | pressure h => exact qnh_modest h
  | seaLevelPressure h => intro q hq; cases hq; exact slp_bound h
  | @stationPressure n s h =>
    intro q hq
    cases hq
    exact ⟨by positivity, by exact_mod_cast (by omega : n ≤ 10000)⟩
  | sixHourly h => exact ⟨(sixHourly_modest h).2, (sixHourly_modest h).1⟩
  | daily h h' => exact ⟨remark_temperature_modest h', remark_temperature_modest h⟩
  | _ => trivial

/-- Every group of every result of parsing is modest. -/
theorem said_modest {now : Option Nat} {x : GroupInfo} (h : Said now x) : Modest x.group := by
  cases h with
  | header h =>
    cases h with
    | time h1 h2 h3 => exact ⟨_, _, _, h1, h2, h3, rfl⟩
    | _ => trivial
  | body _ h => exact written_modest h
  | remark h => exact settled_modest (remark_modest h)
  | _ => trivial

end Metaf.Props
