import Verif.Props.ExplainValues

/-!
C135: the ranges and the units of the values in the result, whatever the report.
-/

set_option linter.unusedSectionVars false

namespace Metaf.Props

open Metaf Metaf.Spec Metaf.Explain

variable [FloatIeee]

/-! ### Specification -/

/-- A direction: tens of degrees, one of the eight octants, or nothing. -/
def Bearing (d : Direction) : Prop :=
  match d.dirType with
  | .VALUE_DEGREES => d.dirDegrees ≤ 990 ∧ d.dirDegrees % 10 = 0
  | .VALUE_CARDINAL => 45 ≤ d.dirDegrees ∧ d.dirDegrees ≤ 360 ∧ d.dirDegrees % 45 = 0
  | _ => d.dirDegrees = 0

/-- One of the eight octants. -/
def Octant (d : Direction) : Prop := d.dirType = .VALUE_CARDINAL ∧ Bearing d

/-- A value is in its range and has a unit which is used in reports. -/
def InRange : Value → Prop
  | .time t => t.hourValue ≤ 99 ∧ t.minuteValue ≤ 99
  | .runway r => r.rNumber ≤ 99
  | .direction d => Bearing d
  | .speed s => (∀ n, s.speedValue = some n → n ≤ 999) ∧ s.speedUnit ≠ .MILES_PER_HOUR
  | .distance d => ∀ n, d.dist = some n → n ≤ (if d.distUnit = .STATUTE_MILES then 2000000 else 110000)
  | .temperature t => ∀ n, tenths t = some n → -1000 ≤ n ∧ n ≤ 1000
  | .pressure p => ∀ q, p.pressureValue = some q → 0 ≤ q ∧ q ≤ 10000
  | .precipitation p => ∀ q, p.precipValue = some q → 0 ≤ q ∧ q ≤ 10000
  | .friction f => f.sfCoefficient ≤ 100
  | .waves w => ∀ n, w.whValue = some n → n ≤ 999

/-- The directions which bound a sector of the horizon. -/
def sectorEnds : Group → List Direction
  | .visibility g => g.dirSecFrom.toList ++ g.dirSecTo.toList
  | _ => []

/-! ### Proofs -/

/-- Directions and units of speeds of a group. -/
def Aimed : Group → Prop
  | .wind g => Bearing g.windDir ∧ Bearing g.vsecBegin ∧ Bearing g.vsecEnd ∧
      g.wSpeed.speedUnit ≠ .MILES_PER_HOUR ∧ g.gSpeed.speedUnit ≠ .MILES_PER_HOUR
  | .visibility g => (∀ d, g.dir = some d → Bearing d) ∧ (∀ d, g.dirSecFrom = some d → Octant d) ∧
      ∀ d, g.dirSecTo = some d → Octant d
  | .cloud g => ∀ d, g.dir = some d → Bearing d
  | _ => True

theorem bearing_none : Bearing {} := rfl

theorem bearing_ndv : Bearing ⟨0, .NDV⟩ := rfl

theorem bearing_tens {n : Nat} (h : n < 100) : Bearing ⟨10 * n, .VALUE_DEGREES⟩ :=
  ⟨(by omega : 10 * n ≤ 990), (by omega : 10 * n % 10 = 0)⟩

theorem bearing_octant {w : Str} {n : Nat} (h : (w, n) ∈ octantNames) : Bearing ⟨n, .VALUE_CARDINAL⟩ := by
  have key : ∀ x ∈ octantNames, 45 ≤ x.2 ∧ x.2 ≤ 360 ∧ x.2 % 45 = 0 := by decide
  exact key _ h

theorem bearing_octants {w : Str} {n : Nat} (h : (w, n) ∈ octants) : Bearing ⟨n, .VALUE_CARDINAL⟩ := by
  have key : ∀ x ∈ octants, 45 ≤ x.2 ∧ x.2 ≤ 360 ∧ x.2 % 45 = 0 := by decide
  exact key _ h

theorem wind_aimed {p : ReportPart} {now : Option Nat} {ws : List Str} {g : WindGroup}
    (h : WindSequence p now ws g) : Aimed (.wind g) := by
  have kt : ({} : Speed).speedUnit ≠ .MILES_PER_HOUR := by decide
  have speed : ∀ (o : Option Nat) (u : SpeedUnit), u ≠ .MILES_PER_HOUR →
      (WindText.speedOf o u).speedUnit ≠ .MILES_PER_HOUR := by
    intro o u hu
    cases o
    · exact kt
    · exact hu
  have key : ∀ w : WindText, w.Ok → Bearing w.group.windDir ∧ w.group.wSpeed.speedUnit ≠ .MILES_PER_HOUR ∧
      w.group.gSpeed.speedUnit ≠ .MILES_PER_HOUR ∧ w.group.vsecBegin = {} ∧ w.group.vsecEnd = {} := by
    intro w hw
    obtain ⟨-, h1, -, -, h4⟩ := hw
    unfold WindText.group
    split
    · exact ⟨bearing_none, speed _ _ h4, kt, rfl, rfl⟩
    · refine ⟨?_, speed _ _ h4, speed _ _ h4, rfl, rfl⟩
      show Bearing w.dir.direction
      cases hd : w.dir with
      | tens n => rw [hd] at h1; exact bearing_tens h1
      | varying => exact (rfl : (0 : Nat) = 0)
      | missing => exact bearing_none
  cases h with
  | wind _ h =>
    obtain ⟨a, b, c, d, e⟩ := key _ h
    exact ⟨a, by rw [d]; exact bearing_none, by rw [e]; exact bearing_none, b, c⟩
  | windAndSector _ h _ _ h1 h2 =>
    obtain ⟨a, b, c, -, -⟩ := key _ h
    exact ⟨a, bearing_tens h1, bearing_tens h2, b, c⟩
  | sector _ h1 h2 => exact ⟨bearing_none, bearing_tens h1, bearing_tens h2, kt, kt⟩
  | peakWind _ h => exact ⟨bearing_tens h, bearing_none, bearing_none, nofun, kt⟩
  | _ => exact ⟨bearing_none, bearing_none, bearing_none, kt, kt⟩

theorem where_bearing {s : Str} {d f t : Option Direction} (h : WhereWord s d f t) :
    (∀ x, d = some x → Bearing x) ∧ (∀ x, f = some x → Octant x) ∧ ∀ x, t = some x → Octant x := by
  cases h with
  | octant h => exact ⟨by rintro x ⟨⟩; exact bearing_octant h, nofun, nofun⟩
  | ndv => exact ⟨by rintro x ⟨⟩; exact bearing_ndv, nofun, nofun⟩
  | sector h1 h2 => exact ⟨nofun, by rintro x ⟨⟩; exact ⟨rfl, bearing_octant h1⟩,
      by rintro x ⟨⟩; exact ⟨rfl, bearing_octant h2⟩⟩

theorem place_bearing {s : Str} {r : Option Runway} {d : Option Direction} (h : PlaceWord s r d) :
    ∀ x, d = some x → Bearing x := by
  cases h with
  | runway => nofun
  | octant h => rintro x ⟨⟩; exact bearing_octant h
  | ndv => rintro x ⟨⟩; exact bearing_ndv

theorem visRemark_aimed {ws : List Str} {g : VisibilityGroup} (h : VisRemark ws g) : Aimed (.visibility g) := by
  cases h with
  | visWhere h => exact where_bearing h
  | visWhereAmount h => exact where_bearing h
  | visnoWhere h => exact where_bearing h
  | _ => exact ⟨nofun, nofun, nofun⟩

theorem bodyVisibility_aimed {s : Str} {g : VisibilityGroup} (h : BodyVisibility s g) : Aimed (.visibility g) := by
  rcases h with ⟨k, n, hk, hn, -, rfl⟩ | ⟨v, x, d, t, o, -, hx, -, rfl⟩ | ⟨d, hd, rfl⟩
  · exact ⟨nofun, nofun, nofun⟩
  · refine ⟨?_, nofun, nofun⟩
    rcases hx with ⟨-, -, rfl⟩ | ⟨n, hn, -, rfl⟩ | ⟨-, -, rfl⟩ | ⟨-, -, rfl⟩
    · nofun
    · rintro x ⟨⟩; exact bearing_octants hn
    · rintro x ⟨⟩; exact bearing_ndv
    · nofun
  · exact ⟨nofun, nofun, nofun⟩

theorem cloudRemark_aimed {ws : List Str} {g : CloudGroup} (h : CloudRemark ws g) : Aimed (.cloud g) := by
  cases h with
  | ceilingHeight h => cases h <;> nofun
  | ceilingPlace _ h => exact place_bearing h
  | noCeilingPlace h => exact place_bearing h
  | _ => nofun

theorem written_aimed {p : ReportPart} {ws : List Str} {g : Group} (h : Written p ws g) : Aimed g := by
  cases h with
  | wind h => exact wind_aimed h
  | visibility h => exact bodyVisibility_aimed h
  | runwayVisualRange => exact ⟨nofun, nofun, nofun⟩
  | milesAndFraction => exact ⟨nofun, nofun, nofun⟩
  | noClouds => nofun
  | cloud h =>
    obtain ⟨_, _, h, _, _, -, hn, -, -, -, rfl⟩ := h
    nofun
  | _ => trivial

theorem remark_aimed {now : Option Nat} {ws : List Str} {g : Group} (h : Remark now ws g) : Aimed g := by
  cases h with
  | fixed h =>
    simp only [fixedWords, List.mem_cons, Prod.mk.injEq, List.not_mem_nil, or_false] at h
    rcases h with ⟨-, rfl⟩ | ⟨-, rfl⟩ | ⟨-, rfl⟩ | ⟨-, rfl⟩ | ⟨-, rfl⟩ | ⟨-, rfl⟩ | ⟨-, rfl⟩ <;> trivial
  | missing h =>
    simp only [missingWords, List.mem_cons, Prod.mk.injEq, List.not_mem_nil, or_false] at h
    rcases h with ⟨-, rfl, -⟩ | ⟨-, rfl, -⟩ | ⟨-, rfl, -⟩ | ⟨-, rfl, -⟩ | ⟨-, rfl, -⟩ | ⟨-, rfl, -⟩ <;> trivial
  | missingSaid h =>
    simp only [missingWords, List.mem_cons, Prod.mk.injEq, List.not_mem_nil, or_false] at h
    rcases h with ⟨-, -, rfl⟩ | ⟨-, -, rfl⟩ | ⟨-, -, rfl⟩ | ⟨-, -, rfl⟩ | ⟨-, -, rfl⟩ | ⟨-, -, rfl⟩ <;> trivial
  | wind h => exact wind_aimed h
  | visibility h => exact visRemark_aimed h
  | cloud h => exact cloudRemark_aimed h
  | _ => trivial

theorem settled_aimed {g : Group} (h : Aimed g) : Aimed (settled g) := by
  cases g <;> exact h

theorem said_aimed {now : Option Nat} {x : GroupInfo} (h : Said now x) : Aimed x.group := by
  cases h with
  | header h => cases h <;> trivial
  | body _ h => exact written_aimed h
  | remark h => exact settled_aimed (remark_aimed h)
  | remnant _ h => trivial
  | _ => trivial

theorem fits_within {v : Value} (hf : Fits v) (ha : ∀ d, v = .direction d → Bearing d)
    (hs : ∀ s, v = .speed s → s.speedUnit ≠ .MILES_PER_HOUR) : InRange v := by
  cases v with
  | time t => exact ⟨Nat.le_of_lt_succ hf.1, Nat.le_of_lt_succ hf.2⟩
  | runway r => exact Nat.le_of_lt_succ hf
  | direction d => exact ha d rfl
  | speed s => exact ⟨fun n hn => Nat.le_of_lt_succ (hf n hn), hs s rfl⟩
  | distance d =>
    intro n hn
    have := (hf n hn).2
    split at this <;> split <;> first | exact this | contradiction
  | temperature t => exact fun n hn => abs_le.mp (hf n hn)
  | pressure p => exact hf
  | precipitation p => exact hf
  | friction f => exact hf
  | waves w => exact fun n hn => Nat.le_of_lt_succ (hf n hn)

theorem aimed_direction {g : Group} (h : Aimed g) {d : Direction} (hd : Value.direction d ∈ values g) :
    Bearing d := by
  cases g with
  | wind g =>
    obtain ⟨h1, h2, h3, -, -⟩ := h
    simp only [values, List.mem_append, List.mem_cons, List.not_mem_nil, or_false, List.mem_map,
      Value.direction.injEq, reduceCtorEq, and_false, exists_false, false_or] at hd
    rcases hd with rfl | rfl | rfl <;> assumption
  | visibility g =>
    simp [values] at hd
    exact h.1 d hd
  | cloud g =>
    simp [values] at hd
    exact h d hd
  | _ => simp [values] at hd

theorem aimed_speed {g : Group} (h : Aimed g) {s : Speed} (hd : Value.speed s ∈ values g) :
    s.speedUnit ≠ .MILES_PER_HOUR := by
  cases g with
  | wind g =>
    obtain ⟨-, -, -, h1, h2⟩ := h
    simp only [values, List.mem_append, List.mem_cons, List.not_mem_nil, or_false, List.mem_map,
      Value.speed.injEq, reduceCtorEq, and_false, exists_false, false_or] at hd
    rcases hd with rfl | rfl <;> assumption
  | _ => simp [values] at hd

/-! ### C135 -/

/-- C135. Every value in the result is in its range, and no speed is in miles per hour. -/
theorem C135_values {report : Str} {limit : Nat} {r : ParseResult} (h : Result report limit r) :
    ∀ x ∈ r.groups, ∀ v ∈ values x.group, InRange v := by
  intro x hx v hv
  have hs := said_aimed (C75_said h x hx)
  refine fits_within (said_fits (fun _ => hour_limit h) (C75_said h x hx) v hv) ?_ ?_
  · rintro d rfl; exact aimed_direction hs hv
  · rintro s rfl; exact aimed_speed hs hv

/-- C135. The ends of every sector of the horizon are octants. -/
theorem C135_sectors {report : Str} {limit : Nat} {r : ParseResult} (h : Result report limit r) :
    ∀ x ∈ r.groups, ∀ d ∈ sectorEnds x.group, Octant d := by
  intro x hx d hd
  have hs := said_aimed (C75_said h x hx)
  cases hg : x.group with
  | visibility g =>
    rw [hg] at hs hd
    simp only [sectorEnds, List.mem_append, Option.mem_toList] at hd
    rcases hd with hd | hd
    · exact hs.2.1 d hd
    · exact hs.2.2 d hd
  | _ => rw [hg] at hd; simp [sectorEnds] at hd

end Metaf.Props

namespace Metaf.Props

open Metaf Metaf.Spec Metaf.Explain

attribute [local instance] ieee

set_option maxRecDepth 8000 in
/-- Times, directions, speeds and runways can be as large as said, though then not valid; sectors are found. -/
example : (match Parser.parse c!"METAR ZZZZ 319999Z 990999KT 9999NW R99/0600 RMK VIS N-SE 2" 200 with
    | .ok r => (r.groups.map fun x => ((values x.group).filterMap fun
        | .time t => some (t.hourValue, t.minuteValue)
        | .direction d => if d.dirType = .NOT_REPORTED then none else some (d.dirDegrees, 0)
        | .speed ⟨some n, _⟩ => some (n, 0)
        | .runway r => some (r.rNumber, 0)
        | _ => none) ++ (sectorEnds x.group).map fun d => (d.dirDegrees, 0))
    | .error _ => []) =
    [[], [], [(99, 99)], [(990, 0), (999, 0)], [(315, 0)], [(99, 0)], [], [(360, 0), (135, 0)]] := by
  decide +kernel

end Metaf.Props
