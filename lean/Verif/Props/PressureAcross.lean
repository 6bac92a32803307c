import Verif.Props.Exceptions
import Verif.Props.Felt
import Verif.Props.SummaryDepends

/-!
C155: pressure of the summary in the other unit than that of the report is the whole part of the true value, with the
arithmetic of IEEE 754.
-/

namespace Metaf.Props

open Metaf Metaf.Spec Metaf.Summary

set_option Elab.async false

attribute [local instance] ieee

/-- Hectopascals in an inch of mercury. -/
def hectopascalsPerInch : Rat := 3386389 / 100000

set_option maxRecDepth 8000 in
theorem inches_checked_1 : ((List.range 500).all fun k => decide (pressureIn false ⟨some (inHgOf (2300 + k)), .INCHES_HG⟩ =
    some (((2300 + k) * 3386389 / 10000000 : Nat) : Int))) = true := by
  decide +kernel

set_option maxRecDepth 8000 in
theorem inches_checked_2 : ((List.range 500).all fun k => decide (pressureIn false ⟨some (inHgOf (2800 + k)), .INCHES_HG⟩ =
    some (((2800 + k) * 3386389 / 10000000 : Nat) : Int))) = true := by
  decide +kernel

set_option maxRecDepth 8000 in
theorem hectopascals_checked : ((List.range 400).all fun k =>
    decide (pressureIn true ⟨some ((750 + k : Nat) : Rat), .HECTOPASCAL⟩ =
      some (((750 + k) * 10000000 / 3386389 : Nat) : Int))) = true := by
  decide +kernel

theorem floor_of_div (a b : Nat) (hb : 0 < b) : ⌊(a : Rat) / b⌋ = ((a / b : Nat) : Int) := by
  rw [Int.floor_eq_iff]
  have h1 := Nat.div_add_mod a b
  have h2 := Nat.mod_lt a hb
  have hb' : (0 : Rat) < b := by exact_mod_cast hb
  have e : (b : Rat) * ((a / b : Nat) : Rat) + ((a % b : Nat) : Rat) = a := by exact_mod_cast h1
  have m0 : (0 : Rat) ≤ ((a % b : Nat) : Rat) := by positivity
  have m1 : ((a % b : Nat) : Rat) < b := by exact_mod_cast h2
  generalize a / b = q at *
  push_cast
  constructor
  · rw [le_div_iff₀ hb']; linarith [mul_comm (b : Rat) q]
  · rw [div_lt_iff₀ hb']; linarith [mul_comm (b : Rat) q]

/-- C155. A pressure in hundredths of an inch of mercury, from 23 to 33 inches, is in metric units the whole number of
hectopascals. -/
theorem C155_inches {n : Nat} {p : Pressure} (hl : 2300 ≤ n) (hh : n < 3300)
    (hp : Pressure.fromString ('A' :: decimal 4 n) = some p) :
    pressureIn false p = some ⌊(n : Rat) / 100 * hectopascalsPerInch⌋ := by
  have e : (n : Rat) / 100 * hectopascalsPerInch = ((n * 3386389 : Nat) : Rat) / ((10000000 : Nat) : Rat) := by
    unfold hectopascalsPerInch
    push_cast
    ring
  rw [e, floor_of_div _ _ (by norm_num)]
  have hp' : p = ⟨some (inHgOf n), .INCHES_HG⟩ :=
    Option.some.inj (hp.symm.trans ((C36_pressure _ _).mpr (Or.inr (Or.inr (Or.inl ⟨n, by omega, rfl, rfl⟩)))))
  subst hp'
  rcases Nat.lt_or_ge n 2800 with c | c
  · have := of_decide_eq_true (List.all_eq_true.mp inches_checked_1 (n - 2300) (List.mem_range.mpr (by omega)))
    rwa [Nat.add_sub_cancel' hl] at this
  · have := of_decide_eq_true (List.all_eq_true.mp inches_checked_2 (n - 2800) (List.mem_range.mpr (by omega)))
    rwa [Nat.add_sub_cancel' c] at this

/-- C155. A pressure in hectopascals, from 750 to 1149, is in imperial units the whole number of hundredths of an inch of
mercury. -/
theorem C155_hectopascals {n : Nat} {p : Pressure} (hl : 750 ≤ n) (hh : n < 1150)
    (hp : Pressure.fromString ('Q' :: decimal 4 n) = some p) :
    pressureIn true p = some ⌊(n : Rat) / hectopascalsPerInch * 100⌋ := by
  have e : (n : Rat) / hectopascalsPerInch * 100 = ((n * 10000000 : Nat) : Rat) / ((3386389 : Nat) : Rat) := by
    unfold hectopascalsPerInch
    push_cast
    ring
  rw [e, floor_of_div _ _ (by norm_num)]
  have hp' : p = ⟨some (n : Rat), .HECTOPASCAL⟩ :=
    Option.some.inj (hp.symm.trans ((C36_pressure _ _).mpr (Or.inr (Or.inr (Or.inr ⟨n, by omega, rfl, rfl⟩)))))
  subst hp'
  have := of_decide_eq_true (List.all_eq_true.mp hectopascals_checked (n - 750) (List.mem_range.mpr (by omega)))
  rwa [Nat.add_sub_cancel' hl] at this

/-- The pressure of the summary is that of the last group of pressure at sea level before the first trend. -/
theorem pressure_last {metar taf : Str} {y m d : Int} {imperial : Bool} {gs : List GroupInfo} {r : CurrentWeather}
    {before after : List Group} {g : PressureGroup} {k : Int} (hm : Gives metar .METAR gs)
    (h : getCurrentWeather metar taf y m d imperial = .ok r)
    (hs : beforeTrend (gs.map (·.group)) = before ++ .pressure g :: after) (ht : g.t = .OBSERVED_QNH)
    (ha : ∀ g', .pressure g' ∈ after → g'.t ≠ .OBSERVED_QNH ∨ g'.p.pressureValue = none)
    (hk : pressureIn imperial g.p = some k) : r.atmosphericPressure = k := by
  have hq : qnhOf (.pressure g) = some g.p := by
    simp only [qnhOf]
    rw [if_pos ht]
  rw [(C87_metar hm h).2.atmosphericPressure, hs, lastOf_append_cons (a := k) (by rw [hq]; exact hk)]
  · rfl
  · intro x hx
    cases x with
    | pressure g' =>
      simp only [qnhOf]
      rcases ha g' hx with c | c
      · rw [if_neg c]; rfl
      · split
        · show pressureIn imperial g'.p = none
          unfold pressureIn Pressure.toUnit
          rw [c]
          cases imperial <;> rfl
        · rfl
    | _ => rfl

/-- C155. The pressure of the summary from a METAR whose last altimeter setting before the first trend is in inches of
mercury. -/
theorem C155_metar_inches {metar taf : Str} {y m d : Int} {gs : List GroupInfo} {r : CurrentWeather}
    {before after : List Group} {g : PressureGroup} {n : Nat} (hm : Gives metar .METAR gs)
    (h : getCurrentWeather metar taf y m d false = .ok r)
    (hs : beforeTrend (gs.map (·.group)) = before ++ .pressure g :: after) (ht : g.t = .OBSERVED_QNH)
    (ha : ∀ g', .pressure g' ∈ after → g'.t ≠ .OBSERVED_QNH ∨ g'.p.pressureValue = none)
    (hp : Pressure.fromString ('A' :: decimal 4 n) = some g.p) (hl : 2300 ≤ n) (hh : n < 3300) :
    r.atmosphericPressure = ⌊(n : Rat) / 100 * hectopascalsPerInch⌋ :=
  pressure_last hm h hs ht ha (C155_inches hl hh hp)

/-- C155. The pressure of the summary in imperial units from a METAR whose last pressure at sea level before the first
trend is in hectopascals. -/
theorem C155_metar_hectopascals {metar taf : Str} {y m d : Int} {gs : List GroupInfo} {r : CurrentWeather}
    {before after : List Group} {g : PressureGroup} {n : Nat} (hm : Gives metar .METAR gs)
    (h : getCurrentWeather metar taf y m d true = .ok r)
    (hs : beforeTrend (gs.map (·.group)) = before ++ .pressure g :: after) (ht : g.t = .OBSERVED_QNH)
    (ha : ∀ g', .pressure g' ∈ after → g'.t ≠ .OBSERVED_QNH ∨ g'.p.pressureValue = none)
    (hp : Pressure.fromString ('Q' :: decimal 4 n) = some g.p) (hl : 750 ≤ n) (hh : n < 1150) :
    r.atmosphericPressure = ⌊(n : Rat) / hectopascalsPerInch * 100⌋ :=
  pressure_last hm h hs ht ha (C155_hectopascals hl hh hp)

def altimeter : Str := c!"METAR KDEN 201853Z 27012KT 10SM CLR 20/10 A2992"

/-- `A2992` is 1013 hectopascals. -/
example : ∃ gs before g, Gives altimeter .METAR gs ∧ beforeTrend (gs.map (·.group)) = before ++ [.pressure g] ∧
    g.t = .OBSERVED_QNH ∧ Pressure.fromString ('A' :: decimal 4 2992) = some g.p ∧
    ⌊((2992 : Nat) : Rat) / 100 * hectopascalsPerInch⌋ = 1013 := by
  refine ⟨_, (beforeTrend ((groupsRead altimeter).map (·.group))).take 7, { t := .OBSERVED_QNH, p := ⟨some (inHgOf 2992), .INCHES_HG⟩ },
    gives_read (gives_of (by kernel_rfl)), (List.take_append_drop 7 _).symm.trans (congrArg _ (by kernel_rfl)), rfl,
    by kernel_rfl, ?_⟩
  rw [Int.floor_eq_iff]
  unfold hectopascalsPerInch
  norm_num

/-- `Q1013` is 29.91 inches. -/
example : ∃ p, Pressure.fromString ('Q' :: decimal 4 1013) = some p ∧ pressureIn true p = some 2991 :=
  ⟨⟨some 1013, .HECTOPASCAL⟩, by kernel_rfl, by kernel_rfl⟩

end Metaf.Props
