import Verif.Props.Written
import Verif.Props.CloudRemarks
import Verif.Props.CloudTypes
import Verif.Props.Lightning
import Verif.Props.Vicinity
import Verif.Props.VisibilityRemarks

/-!
C72: which sequences of words are groups of the remarks, and what the groups say, in terms of the texts
only.
-/

set_option linter.unusedSectionVars false

namespace Metaf.Props

open Metaf Metaf.Spec

variable [FloatIeee]

/-! ### Specification -/

/-- Words for a six-hourly temperature which is not available. -/
def noTemperature : List Str := [c!"1////", c!"2////"]

/-- Six-hourly maximum and minimum temperature: in any order, each at most once. Before the second one
there may be any number of words for a temperature which is not available. -/
inductive SixHourly : List Str → Temperature → Temperature → Prop
  | missing {ms} : ms ≠ [] → (∀ m ∈ ms, m ∈ noTemperature) → SixHourly ms {} {}
  | maximum {ms ns b n} : (∀ m ∈ ms, m ∈ noTemperature) → (∀ m ∈ ns, m ∈ noTemperature) → n < 1000 →
      SixHourly (ms ++ (c!"1" ++ remarkTemperatureText b n) :: ns) (remarkTemperature b n) {}
  | minimum {ms ns b n} : (∀ m ∈ ms, m ∈ noTemperature) → (∀ m ∈ ns, m ∈ noTemperature) → n < 1000 →
      SixHourly (ms ++ (c!"2" ++ remarkTemperatureText b n) :: ns) {} (remarkTemperature b n)
  | maxMin {ms ns b n b' n'} : (∀ m ∈ ms, m ∈ noTemperature) → (∀ m ∈ ns, m ∈ noTemperature) → n < 1000 →
      n' < 1000 →
      SixHourly (ms ++ (c!"1" ++ remarkTemperatureText b n) :: ns ++ [c!"2" ++ remarkTemperatureText b' n'])
        (remarkTemperature b n) (remarkTemperature b' n')
  | minMax {ms ns b n b' n'} : (∀ m ∈ ms, m ∈ noTemperature) → (∀ m ∈ ns, m ∈ noTemperature) → n < 1000 →
      n' < 1000 →
      SixHourly (ms ++ (c!"2" ++ remarkTemperatureText b n) :: ns ++ [c!"1" ++ remarkTemperatureText b' n'])
        (remarkTemperature b' n') (remarkTemperature b n)

/-- Words saying that something is missing, which are of no use without a continuation. -/
def missingWords : List (Str × Group × Group) :=
  [(c!"WX", .weather { t := .WX_MISG, incompleteText := .WX }, .weather { t := .WX_MISG }),
   (c!"T", .temperature ⟨.T_MISG, {}, {}, true⟩, .temperature ⟨.T_MISG, {}, {}, false⟩),
   (c!"TD", .temperature ⟨.TD_MISG, {}, {}, true⟩, .temperature ⟨.TD_MISG, {}, {}, false⟩),
   (c!"PRES", .pressure ⟨.PRES_MISG, {}, true⟩, .pressure ⟨.PRES_MISG, {}, false⟩),
   (c!"ICG", .precipitation ⟨.ICG_MISG, ⟨none, .MM⟩, ⟨none, .MM⟩, true⟩,
      .precipitation ⟨.ICG_MISG, ⟨none, .MM⟩, ⟨none, .MM⟩, false⟩),
   (c!"PCPN", .precipitation ⟨.PCPN_MISG, ⟨none, .MM⟩, ⟨none, .MM⟩, true⟩,
      .precipitation ⟨.PCPN_MISG, ⟨none, .MM⟩, ⟨none, .MM⟩, false⟩)]

/-- Remarks which are one word and are always the same. -/
def fixedWords : List (Str × Group) :=
  [(c!"PWINO", .weather { t := .PWINO }), (c!"TSNO", .weather { t := .TSNO }),
   (c!"SLPNO", .pressure ⟨.SLPNO, {}, false⟩),
   (c!"PNO", .precipitation ⟨.PNO, ⟨none, .MM⟩, ⟨none, .MM⟩, false⟩),
   (c!"FZRANO", .precipitation ⟨.FZRANO, ⟨none, .MM⟩, ⟨none, .MM⟩, false⟩),
   (c!"PRESRR", .pressureTendency ⟨.RISING_RAPIDLY, {}⟩),
   (c!"PRESFR", .pressureTendency ⟨.FALLING_RAPIDLY, {}⟩)]

/-- `Remark now ws g`: in the remarks of a report, made at the hour `now` if the report says so, the words
`ws` together say what `g` holds. -/
inductive Remark (now : Option Nat) : List Str → Group → Prop
  | keyword {s k} : IsKeyword .RMK s k → Remark now [s] (.keyword ⟨k⟩)
  | fixed {s g} : (s, g) ∈ fixedWords → Remark now [s] g
  | missing {s g g'} : (s, g, g') ∈ missingWords → Remark now [s] g
  | missingSaid {s g g'} : (s, g, g') ∈ missingWords → Remark now [s, c!"MISG"] g'
  | wind {ws g} : WindSequence .RMK now ws g → Remark now ws (.wind g)
  | visibility {ws g} : VisRemark ws g → Remark now ws (.visibility g)
  | cloud {ws g} : CloudRemark ws g → Remark now ws (.cloud g)
  | events {h fs es} : now = some h → fs ≠ [] → (∀ f ∈ fs, f.Ok) → readEvents h none fs = some es →
      Remark now [(fs.map EventForm.text).flatten] (.weather { t := .EVENT, w := (es.take 20).map stored })
  | lightningSensor : Remark now [c!"TS/LTNG"]
      (.weather { t := .TS_LTNG_TEMPO_UNAVBL, incompleteText := .TSLTNG })
  | lightningSensorTemporarily : Remark now [c!"TS/LTNG", c!"TEMPO"]
      (.weather { t := .TS_LTNG_TEMPO_UNAVBL, incompleteText := .TSLTNG_TEMPO })
  | lightningSensorUnavailable : Remark now [c!"TS/LTNG", c!"TEMPO", c!"UNAVBL"]
      (.weather { t := .TS_LTNG_TEMPO_UNAVBL })
  | temperature {t : Tenths} {d : Option Tenths} : t.Ok → (∀ x ∈ d, x.Ok) →
      Remark now [c!"T" ++ t.text ++ tenthsText d]
        (.temperature ⟨.TEMPERATURE_AND_DEW_POINT, t.temperature, tenthsDewPoint d, false⟩)
  | pressure {s q} : QnhWritten s q → Remark now [s] (.pressure ⟨.OBSERVED_QNH, q, false⟩)
  | seaLevelPressure {n} : n < 1000 → Remark now [c!"SLP" ++ decimal 3 n]
      (.pressure ⟨.OBSERVED_SLP, ⟨some (slpOf n), .HECTOPASCAL⟩, false⟩)
  | stationPressure {n : Nat} {s} : n < 1000 →
      (s = c!"QFE" ++ decimal 3 n ∨ ∃ m, m < 10000 ∧ s = c!"QFE" ++ decimal 3 n ++ c!"/" ++ decimal 4 m) →
      Remark now [s] (.pressure ⟨.OBSERVED_QFE, ⟨some n, .MM_HG⟩, false⟩)
  | sixHourly {ws x n} : SixHourly ws x n →
      Remark now ws (.minMaxTemperature { t := .OBSERVED_6_HOURLY, maxTemp := x, minTemp := n })
  | daily {b n b' n'} : n < 1000 → n' < 1000 →
      Remark now [c!"4" ++ remarkTemperatureText b n ++ remarkTemperatureText b' n']
        (.minMaxTemperature { t := .OBSERVED_24_HOURLY, maxTemp := remarkTemperature b n,
                              minTemp := remarkTemperature b' n' })
  | precipitation {code k t u scale v p} : (code, k, t, u, scale) ∈ amountTable now →
      AmountWritten k scale u v p → Remark now [code ++ v] (.precipitation ⟨t, p, ⟨none, .MM⟩, false⟩)
  | snowIncreasing : Remark now [c!"SNINCR"]
      (.precipitation ⟨.SNOW_INCREASING_RAPIDLY, ⟨none, .MM⟩, ⟨none, .MM⟩, false⟩)
  | snowIncrease {s p q} : SnincrWritten s p q →
      Remark now [c!"SNINCR", s] (.precipitation ⟨.SNOW_INCREASING_RAPIDLY, q, p, false⟩)
  | tendency {c r t p} : TendencyWritten c t → DifferenceWritten r p →
      Remark now [c!"5" ++ [c] ++ r] (.pressureTendency ⟨t, p⟩)
  | cloudTypes {ws cs} : ws ≠ [] → ws.length ≤ 8 → List.Forall₂ TypeLayerText ws cs →
      Remark now ws (.cloudTypes ⟨cs⟩)
  | cloudOktas {l : List Str} {cs} : l ≠ [] → (∀ t ∈ l, Segment t) → List.Forall₂ OktaText (l.take 8) cs →
      Remark now [l.flatten] (.cloudTypes ⟨cs⟩)
  | cloudCodes {a b c} {g : LowMidHighCloudGroup} : CodeWritten lowCode .NOT_OBSERVABLE a g.cloudLowLayer →
      CodeWritten midCode .NOT_OBSERVABLE b g.cloudMidLayer →
      CodeWritten highCode .NOT_OBSERVABLE c g.cloudHighLayer →
      Remark now [['8', '/', a, b, c]] (.lowMidHighCloud g)
  | lightning {ws g c1 c2} : LightningText ws g c1 c2 → Remark now ws (.lightning g)
  | vicinity {ws g c1 c2} : VicinityText ws g c1 c2 → Remark now ws (.vicinity g)
  | misc {ws g} : MiscText .RMK ws g → Remark now ws (.misc g)

/-! ### Six-hourly temperatures -/

abbrev sixGroup (x n : Temperature) : MinMaxTemperatureGroup :=
  { t := .OBSERVED_6_HOURLY, maxTemp := x, minTemp := n }

theorem remark_reported (b : Bool) (n : Nat) : (remarkTemperature b n).isReported = true := rfl

theorem six_parse {s : Str} {g : MinMaxTemperatureGroup} (h : MinMaxTemperatureGroup.from6hourly s = some g) :
    (s ∈ noTemperature ∧ g = sixGroup {} {}) ∨
    (∃ b n, n < 1000 ∧ s = c!"1" ++ remarkTemperatureText b n ∧ g = sixGroup (remarkTemperature b n) {}) ∨
    ∃ b n, n < 1000 ∧ s = c!"2" ++ remarkTemperatureText b n ∧ g = sixGroup {} (remarkTemperature b n) := by
  rcases (from6hourly_iff s g).mp h with ⟨e | e, rfl⟩ | ⟨b, n, hn, ⟨h1, h2⟩ | ⟨h1, h2⟩⟩
  · exact Or.inl ⟨by simp [noTemperature, e], rfl⟩
  · exact Or.inl ⟨by simp [noTemperature, e], rfl⟩
  · exact Or.inr (Or.inl ⟨b, n, hn, h1, h2⟩)
  · exact Or.inr (Or.inr ⟨b, n, hn, h1, h2⟩)

theorem six_no {s : Str} (h : s ∈ noTemperature) :
    MinMaxTemperatureGroup.from6hourly s = some (sixGroup {} {}) := by
  refine (from6hourly_iff s _).mpr (Or.inl ⟨?_, rfl⟩)
  simpa [noTemperature] using h

theorem six_max {b : Bool} {n : Nat} (hn : n < 1000) :
    MinMaxTemperatureGroup.from6hourly (c!"1" ++ remarkTemperatureText b n) =
      some (sixGroup (remarkTemperature b n) {}) :=
  (from6hourly_iff _ _).mpr (Or.inr ⟨b, n, hn, Or.inl ⟨rfl, rfl⟩⟩)

theorem six_min {b : Bool} {n : Nat} (hn : n < 1000) :
    MinMaxTemperatureGroup.from6hourly (c!"2" ++ remarkTemperatureText b n) =
      some (sixGroup {} (remarkTemperature b n)) :=
  (from6hourly_iff _ _).mpr (Or.inr ⟨b, n, hn, Or.inr ⟨rfl, rfl⟩⟩)

theorem six_append (x n : Temperature) (s : Str) : (sixGroup x n).append s =
    .ok (if x.isReported && n.isReported then (sixGroup x n, .NOT_APPENDED) else
      match MinMaxTemperatureGroup.from6hourly s with
      | none => (sixGroup x n, .NOT_APPENDED)
      | some g => if n.isReported && g.minTemp.isReported then (sixGroup x n, .NOT_APPENDED)
        else if x.isReported && g.maxTemp.isReported then (sixGroup x n, .NOT_APPENDED)
        else (sixGroup (if !x.isReported && g.maxTemp.isReported then g.maxTemp else x)
          (if !n.isReported && g.minTemp.isReported then g.minTemp else n), .APPENDED)) := by
  simp only [MinMaxTemperatureGroup.append, MinMaxTemperatureGroup.append6hourly, Bool.and_comm]
  cases MinMaxTemperatureGroup.from6hourly s <;> rfl

theorem all_snoc {ms : List Str} {s : Str} (h : ∀ m ∈ ms, m ∈ noTemperature) (hs : s ∈ noTemperature) :
    ∀ m ∈ ms ++ [s], m ∈ noTemperature := by
  intro m hm
  rcases List.mem_append.mp hm with hm | hm
  · exact h m hm
  · exact (List.mem_singleton.mp hm) ▸ hs

theorem six_first {s : Str} {g : MinMaxTemperatureGroup} (h : MinMaxTemperatureGroup.from6hourly s = some g) :
    ∃ x n, g = sixGroup x n ∧ SixHourly [s] x n := by
  rcases six_parse h with ⟨hs, rfl⟩ | ⟨b, n, hn, rfl, rfl⟩ | ⟨b, n, hn, rfl, rfl⟩
  · exact ⟨_, _, rfl, .missing (by simp) (by simpa using hs)⟩
  · exact ⟨_, _, rfl, .maximum (ms := []) (ns := []) (by simp) (by simp) hn⟩
  · exact ⟨_, _, rfl, .minimum (ms := []) (ns := []) (by simp) (by simp) hn⟩

theorem six_step {ws : List Str} {x n : Temperature} {s : Str} {g : MinMaxTemperatureGroup}
    (h : SixHourly ws x n) (ha : (sixGroup x n).append s = .ok (g, .APPENDED)) :
    ∃ x' n', g = sixGroup x' n' ∧ SixHourly (ws ++ [s]) x' n' := by
  rw [six_append] at ha
  have ha := Except.ok.inj ha
  have e : (({} : Temperature).isReported) = false := rfl
  cases hp : MinMaxTemperatureGroup.from6hourly s with
  | none => rw [hp] at ha; dsimp only at ha; split at ha <;> cases ha
  | some y =>
    rw [hp] at ha
    dsimp only at ha
    cases h with
    | missing h0 hm =>
      simp only [e, Bool.false_and, Bool.false_eq_true, if_false, Bool.not_false, Bool.true_and, Prod.mk.injEq,
        and_true] at ha
      rcases six_parse hp with ⟨hs, rfl⟩ | ⟨b, n, hn, rfl, rfl⟩ | ⟨b, n, hn, rfl, rfl⟩
      · exact ⟨_, _, ha.symm, .missing (by simp) (all_snoc hm hs)⟩
      · exact ⟨_, _, ha.symm, .maximum (ns := []) hm (by simp) hn⟩
      · exact ⟨_, _, ha.symm, .minimum (ns := []) hm (by simp) hn⟩
    | @maximum ms ns b n hm hns hn =>
      simp only [e, remark_reported, Bool.and_false, Bool.false_and, Bool.false_eq_true, if_false, Bool.not_false,
        Bool.not_true, Bool.true_and] at ha
      rcases six_parse hp with ⟨hs, rfl⟩ | ⟨b', n', hn', rfl, rfl⟩ | ⟨b', n', hn', rfl, rfl⟩
      · simp only [e, Bool.false_eq_true, if_false, Prod.mk.injEq, and_true] at ha
        refine ⟨_, _, ha.symm, ?_⟩
        rw [List.append_assoc, List.cons_append]
        exact .maximum hm (all_snoc hns hs) hn
      · simp [remark_reported] at ha
      · simp only [e, remark_reported, Bool.false_eq_true, if_false, if_true, Prod.mk.injEq, and_true] at ha
        exact ⟨_, _, ha.symm, .maxMin hm hns hn hn'⟩
    | @minimum ms ns b n hm hns hn =>
      simp only [e, remark_reported, Bool.and_true, Bool.false_and, Bool.false_eq_true, if_false, Bool.not_false,
        Bool.not_true, Bool.true_and] at ha
      rcases six_parse hp with ⟨hs, rfl⟩ | ⟨b', n', hn', rfl, rfl⟩ | ⟨b', n', hn', rfl, rfl⟩
      · simp only [e, Bool.false_eq_true, if_false, Prod.mk.injEq, and_true] at ha
        refine ⟨_, _, ha.symm, ?_⟩
        rw [List.append_assoc, List.cons_append]
        exact .minimum hm (all_snoc hns hs) hn
      · simp only [e, remark_reported, Bool.false_eq_true, if_false, if_true, Prod.mk.injEq, and_true] at ha
        exact ⟨_, _, ha.symm, .minMax hm hns hn hn'⟩
      · simp [remark_reported] at ha
    | maxMin => simp [remark_reported] at ha
    | minMax => simp [remark_reported] at ha

theorem six_reads_first {md : ReportMetadata} {s : Str} {g : MinMaxTemperatureGroup}
    (h : MinMaxTemperatureGroup.from6hourly s = some g) : Reads .RMK md [s] (.minMaxTemperature g) := by
  refine reads_one (i := 12) ?_
  simp [recognise, MinMaxTemperatureGroup.parse, h]

theorem six_reads_missing {md : ReportMetadata} {ws : List Str} {x n : Temperature}
    (h : Reads .RMK md ws (.minMaxTemperature (sixGroup x n))) (hb : (x.isReported && n.isReported) = false)
    {ns : List Str} (hns : ∀ m ∈ ns, m ∈ noTemperature) :
    Reads .RMK md (ws ++ ns) (.minMaxTemperature (sixGroup x n)) := by
  induction ns using List.reverseRecOn with
  | nil => simpa using h
  | append_singleton ns s ih =>
    rw [← List.append_assoc]
    refine .more (ih fun m hm => hns m (by simp [hm])) ?_
    have hs := six_no (hns s (by simp))
    have e : (({} : Temperature).isReported) = false := rfl
    simp only [Group.append, six_append, hs, hb, e, Bool.and_false, Bool.false_eq_true, if_false]

/-- Any number of words for a missing temperature and then one temperature. -/
theorem six_reads_one {md : ReportMetadata} {ms ns : List Str} {s : Str} {x n : Temperature}
    (hm : ∀ m ∈ ms, m ∈ noTemperature) (hn : ∀ m ∈ ns, m ∈ noTemperature)
    (hs : MinMaxTemperatureGroup.from6hourly s = some (sixGroup x n)) (hb : (x.isReported && n.isReported) = false)
    (hx : x.isReported = false → x = {}) (hn' : n.isReported = false → n = {}) :
    Reads .RMK md (ms ++ s :: ns) (.minMaxTemperature (sixGroup x n)) := by
  rw [show ms ++ s :: ns = (ms ++ [s]) ++ ns by simp]
  refine six_reads_missing ?_ hb hn
  cases ms with
  | nil => exact six_reads_first hs
  | cons m ms =>
    have h0 : Reads .RMK md (m :: ms) (.minMaxTemperature (sixGroup {} {})) :=
      six_reads_missing (ws := [m]) (six_reads_first (six_no (hm m (by simp)))) rfl
        (fun y hy => hm y (by simp [hy]))
    refine .more h0 ?_
    have e : (({} : Temperature).isReported) = false := rfl
    simp only [Group.append, six_append, hs, e, Bool.false_and, Bool.false_eq_true, if_false, Bool.not_false,
      Bool.true_and]
    congr 3
    have k : (if x.isReported = true then x else {}) = x := by
      cases h1 : x.isReported
      · rw [hx h1]; rfl
      · rfl
    have k' : (if n.isReported = true then n else {}) = n := by
      cases h1 : n.isReported
      · rw [hn' h1]; rfl
      · rfl
    rw [k, k']

theorem six_reads {md : ReportMetadata} {ws : List Str} {x n : Temperature} (h : SixHourly ws x n) :
    Reads .RMK md ws (.minMaxTemperature (sixGroup x n)) := by
  have e : (({} : Temperature).isReported) = false := rfl
  cases h with
  | missing h0 hm =>
    cases ws with
    | nil => exact absurd rfl h0
    | cons m ms =>
      exact six_reads_missing (ws := [m]) (six_reads_first (six_no (hm m (by simp)))) rfl
        (fun y hy => hm y (by simp [hy]))
  | maximum hm hns hn => exact six_reads_one hm hns (six_max hn) rfl (by simp [remark_reported]) (fun _ => rfl)
  | minimum hm hns hn => exact six_reads_one hm hns (six_min hn) rfl (fun _ => rfl) (by simp [remark_reported])
  | maxMin hm hns hn hn' =>
    refine .more (six_reads_one hm hns (six_max hn) rfl (by simp [remark_reported]) (fun _ => rfl)) ?_
    simp only [Group.append, six_append, six_min hn', e, remark_reported, Bool.and_false, Bool.false_and,
      Bool.false_eq_true, if_false, Bool.not_false, Bool.not_true, Bool.true_and, if_true]
  | minMax hm hns hn hn' =>
    refine .more (six_reads_one hm hns (six_min hn) rfl (fun _ => rfl) (by simp [remark_reported])) ?_
    simp only [Group.append, six_append, six_max hn', e, remark_reported, Bool.and_false, Bool.false_and,
      Bool.false_eq_true, if_false, Bool.not_false, Bool.not_true, Bool.true_and, if_true]

/-! ### Words of a remark are written so -/

theorem first_remark {md : ReportMetadata} {i : Nat} {w : Str} {g : Group}
    (h : recognise i w .RMK md = .ok (some g)) : Remark (reportHour md) [w] g := by
  have hi := (recognise_shape h).1
  interval_cases i
  · obtain ⟨⟨k⟩, hx, rfl⟩ := map_some h; exact .keyword (keyword_parse_iff.mp hx)
  · obtain ⟨x, hx, rfl⟩ := map_some h; cases hx
  · obtain ⟨x, hx, rfl⟩ := map_some h; cases hx
  · obtain ⟨x, hx, rfl⟩ := map_some h; cases hx
  · obtain ⟨x, hx, rfl⟩ := map_some h
    exact .wind ((C63_history .RMK md [w] x).mp (by rw [taken_one]; exact hx))
  · obtain ⟨x, hx, rfl⟩ := map_some h
    exact .visibility ((C64_history [w] x).mp (by rw [taken_one]; exact hx))
  · obtain ⟨x, hx, rfl⟩ := map_some h
    exact .cloud ((C72_clouds [w] x).mp (by rw [taken_one]; exact hx))
  · simp only [recognise] at h
    split at h
    · cases h
    · rename_i r hr
      obtain ⟨x, rfl, rfl⟩ := map_some h
      rcases (C42_remark w md x).mp hr with ⟨rfl, rfl⟩ | ⟨rfl, rfl⟩ | ⟨rfl, rfl⟩ | ⟨rfl, rfl⟩ |
        ⟨rt, fs, es, h1, h2, h3, rfl, h4, rfl⟩
      · exact .fixed (by simp [fixedWords])
      · exact .fixed (by simp [fixedWords])
      · exact .missing (s := c!"WX")
          (g' := .weather { t := .WX_MISG }) (by simp [missingWords])
      · exact .lightningSensor
      · exact .events (h := rt.hourValue) (by simp [reportHour, h1]) h2 h3 h4
  · obtain ⟨x, hx, rfl⟩ := map_some h
    rcases (C51_remark w x).mp hx with ⟨rfl, rfl⟩ | ⟨rfl, rfl⟩ | ⟨t, d, ht, hd, rfl, rfl⟩
    · exact .missing (s := c!"T")
          (g' := .temperature ⟨.T_MISG, {}, {}, false⟩) (by simp [missingWords])
    · exact .missing (s := c!"TD")
          (g' := .temperature ⟨.TD_MISG, {}, {}, false⟩) (by simp [missingWords])
    · exact .temperature ht hd
  · obtain ⟨x, hx, rfl⟩ := map_some h
    rcases (C52_remark w x).mp hx with ⟨q, hq, rfl⟩ | ⟨rfl, rfl⟩ | ⟨rfl, rfl⟩ | ⟨n, hn, rfl, rfl⟩ | ⟨n, hn, rfl, hs⟩
    · exact .pressure hq
    · exact .fixed (by simp [fixedWords])
    · exact .missing (s := c!"PRES")
          (g' := .pressure ⟨.PRES_MISG, {}, false⟩) (by simp [missingWords])
    · exact .seaLevelPressure hn
    · exact .stationPressure hn hs
  · obtain ⟨x, hx, rfl⟩ := map_some h
    rw [C54_elsewhere _ _ (by simp)] at hx; cases hx
  · obtain ⟨x, hx, rfl⟩ := map_some h
    rw [C55_elsewhere _ _ (by simp)] at hx; cases hx
  · obtain ⟨x, hx, rfl⟩ := map_some h
    rcases (C44_observed w x).mp hx with h | h | ⟨b, n, b', n', hn, hn', rfl, rfl⟩
    · obtain ⟨x', n', rfl, hs⟩ := six_first ((from6hourly_iff w x).mpr (Or.inl h))
      exact .sixHourly hs
    · obtain ⟨x', n', rfl, hs⟩ := six_first ((from6hourly_iff w x).mpr (Or.inr h))
      exact .sixHourly hs
    · exact .daily hn hn'
  · obtain ⟨x, hx, rfl⟩ := map_some h
    rcases (C56_remark w md x).mp hx with ⟨t, b, hm, rfl⟩ | ⟨code, k, t, u, scale, v, p, hm, hp, rfl, rfl⟩
    · simp only [precipitationWords, List.mem_cons, Prod.mk.injEq, List.not_mem_nil, or_false] at hm
      rcases hm with ⟨rfl, rfl, rfl⟩ | ⟨rfl, rfl, rfl⟩ | ⟨rfl, rfl, rfl⟩ | ⟨rfl, rfl, rfl⟩ | ⟨rfl, rfl, rfl⟩
      · exact .fixed (by simp [fixedWords])
      · exact .fixed (by simp [fixedWords])
      · exact .missing (s := c!"ICG")
          (g' := .precipitation ⟨.ICG_MISG, ⟨none, .MM⟩, ⟨none, .MM⟩, false⟩) (by simp [missingWords])
      · exact .missing (s := c!"PCPN")
          (g' := .precipitation ⟨.PCPN_MISG, ⟨none, .MM⟩, ⟨none, .MM⟩, false⟩) (by simp [missingWords])
      · exact .snowIncreasing
    · exact .precipitation hm hp
  · obtain ⟨x, hx, rfl⟩ := map_some h
    rw [C57_elsewhere _ _ (by simp)] at hx; cases hx
  · obtain ⟨x, hx, rfl⟩ := map_some h
    rcases (C53_tendency w x).mp hx with ⟨rfl, rfl⟩ | ⟨rfl, rfl⟩ | ⟨c, r, t, p, hc, hr, rfl, rfl⟩
    · exact .fixed (by simp [fixedWords])
    · exact .fixed (by simp [fixedWords])
    · exact .tendency hc hr
  · obtain ⟨x, hx, rfl⟩ := map_some h
    rcases (C43_parse w x).mp hx with ⟨c, hc, rfl⟩ | ⟨l, cs, hne, hs, rfl, hf, rfl⟩
    · exact .cloudTypes (by simp) (by simp) (.cons hc .nil)
    · exact .cloudOktas hne hs hf
  · obtain ⟨x, hx, rfl⟩ := map_some h
    obtain ⟨a, b, c, rfl, ha, hb, hc⟩ := (C58_clouds w x).mp hx
    exact .cloudCodes ha hb hc
  · obtain ⟨x, hx, rfl⟩ := map_some h
    obtain ⟨c1, c2, ht⟩ := (C60_history [w] x).mp (by rw [taken_one]; exact hx)
    exact .lightning ht
  · obtain ⟨x, hx, rfl⟩ := map_some h
    obtain ⟨c1, c2, ht⟩ := (C61_history [w] x).mp (by rw [taken_one]; exact hx)
    exact .vicinity ht
  · obtain ⟨x, hx, rfl⟩ := map_some h
    exact .misc ((C62_history .RMK [w] x).mp (by rw [taken_one]; exact hx))

theorem fixed_closed {s : Str} {g : Group} (h : (s, g) ∈ fixedWords) (w : Str) (p : ReportPart)
    (md : ReportMetadata) : g.append w p md = .ok (g, .NOT_APPENDED) := by
  simp only [fixedWords, List.mem_cons, Prod.mk.injEq, List.not_mem_nil, or_false] at h
  rcases h with ⟨-, rfl⟩ | ⟨-, rfl⟩ | ⟨-, rfl⟩ | ⟨-, rfl⟩ | ⟨-, rfl⟩ | ⟨-, rfl⟩ | ⟨-, rfl⟩ <;> rfl

theorem missing_append {s : Str} {g g' : Group} (h : (s, g, g') ∈ missingWords) (w : Str) (p : ReportPart)
    (md : ReportMetadata) : g.append w p md =
      .ok (if w = c!"MISG" then (g', .APPENDED) else (g, .GROUP_INVALIDATED)) := by
  simp only [missingWords, List.mem_cons, Prod.mk.injEq, List.not_mem_nil, or_false] at h
  by_cases hw : w = c!"MISG"
  · subst hw
    rcases h with ⟨-, rfl, rfl⟩ | ⟨-, rfl, rfl⟩ | ⟨-, rfl, rfl⟩ | ⟨-, rfl, rfl⟩ | ⟨-, rfl, rfl⟩ | ⟨-, rfl, rfl⟩ <;> rfl
  · rcases h with ⟨-, rfl, rfl⟩ | ⟨-, rfl, rfl⟩ | ⟨-, rfl, rfl⟩ | ⟨-, rfl, rfl⟩ | ⟨-, rfl, rfl⟩ | ⟨-, rfl, rfl⟩ <;>
      simp [Group.append, WeatherGroup.append, TemperatureGroup.append, PressureGroup.append,
        PrecipitationGroup.append, hw]

theorem missing_closed {s : Str} {g g' : Group} (h : (s, g, g') ∈ missingWords) (w : Str) (p : ReportPart)
    (md : ReportMetadata) : g'.append w p md = .ok (g', .NOT_APPENDED) := by
  simp only [missingWords, List.mem_cons, Prod.mk.injEq, List.not_mem_nil, or_false] at h
  rcases h with ⟨-, rfl, rfl⟩ | ⟨-, rfl, rfl⟩ | ⟨-, rfl, rfl⟩ | ⟨-, rfl, rfl⟩ | ⟨-, rfl, rfl⟩ | ⟨-, rfl, rfl⟩ <;> rfl

theorem amount_type {now : Option Nat} {code : Str} {k : Nat} {t : PrecipitationType} {u : PrecipitationUnit}
    {scale : Nat} (h : (code, k, t, u, scale) ∈ amountTable now) :
    t ≠ .SNOW_INCREASING_RAPIDLY ∧ t ≠ .ICG_MISG ∧ t ≠ .PCPN_MISG := by
  simp only [amountTable, List.mem_cons, Prod.mk.injEq, List.not_mem_nil, or_false] at h
  rcases h with h | h | h | h | h | h | h | h | h | h
  all_goals obtain ⟨-, -, rfl, -, -⟩ := h
  all_goals first
    | (simp; done)
    | (unfold frozenType; refine ⟨?_, ?_, ?_⟩ <;> (repeat' split) <;> simp)

theorem amount_closed {now : Option Nat} {code : Str} {k : Nat} {t : PrecipitationType} {u : PrecipitationUnit}
    {scale : Nat} (h : (code, k, t, u, scale) ∈ amountTable now) (p q : Precipitation) (w : Str) :
    PrecipitationGroup.append ⟨t, p, q, false⟩ w = (⟨t, p, q, false⟩, .NOT_APPENDED) := by
  obtain ⟨h1, h2, h3⟩ := amount_type h
  simp [PrecipitationGroup.append, h1, h2, h3]

theorem snincr_append (w : Str) :
    (∃ p q, SnincrWritten w p q ∧
      PrecipitationGroup.append ⟨.SNOW_INCREASING_RAPIDLY, ⟨none, .MM⟩, ⟨none, .MM⟩, false⟩ w =
        (⟨.SNOW_INCREASING_RAPIDLY, q, p, false⟩, .APPENDED)) ∨
    PrecipitationGroup.append ⟨.SNOW_INCREASING_RAPIDLY, ⟨none, .MM⟩, ⟨none, .MM⟩, false⟩ w =
      (⟨.SNOW_INCREASING_RAPIDLY, ⟨none, .MM⟩, ⟨none, .MM⟩, false⟩, .NOT_APPENDED) := by
  have h := (C56_append c!"SNINCR" w .RMK {} ⟨.SNOW_INCREASING_RAPIDLY, ⟨none, .MM⟩, ⟨none, .MM⟩, false⟩
    ((C56_remark _ _ _).mpr (Or.inl ⟨_, _, by simp [precipitationWords], rfl⟩))).1 rfl
  by_cases hw : ∃ p q, SnincrWritten w p q
  · obtain ⟨p, q, hpq⟩ := hw
    exact Or.inl ⟨p, q, hpq, h.1 p q hpq⟩
  · exact Or.inr (h.2 fun p q hpq => hw ⟨p, q, hpq⟩)

theorem snincr_closed {s : Str} {p q : Precipitation} (h : SnincrWritten s p q) (w : Str) :
    PrecipitationGroup.append ⟨.SNOW_INCREASING_RAPIDLY, q, p, false⟩ w =
      (⟨.SNOW_INCREASING_RAPIDLY, q, p, false⟩, .NOT_APPENDED) := by
  obtain ⟨i, j, a, b, -, -, -, -, -, rfl, rfl⟩ := h
  simp [PrecipitationGroup.append, Precipitation.isReported]

theorem oktas_closed {l : List Str} {cs : List CloudType} (hne : l ≠ [])
    (hf : List.Forall₂ OktaText (l.take 8) cs) (w : Str) :
    CloudTypesGroup.append ⟨cs⟩ w = .ok (⟨cs⟩, .NOT_APPENDED) := by
  have hcs : ∀ c ∈ cs, c.ht.isReported = false := by
    intro c hc
    obtain ⟨e, h⟩ := List.forall₂_iff_get.mp hf
    obtain ⟨n, hn, rfl⟩ := List.getElem_of_mem hc
    obtain ⟨t, k, a, -, -, -, e⟩ := h n (by omega) hn
    rw [show cs[n] = cs.get ⟨n, hn⟩ from rfl, e]
    rfl
  have hn : cs ≠ [] := by
    rintro rfl
    have := hf.length_eq
    cases l with
    | nil => exact hne rfl
    | cons a l => simp at this
  obtain ⟨c, hc⟩ : ∃ c, cs.getLast? = some c := by
    cases h : cs.getLast? with
    | none => exact absurd (List.getLast?_eq_none_iff.mp h) hn
    | some c => exact ⟨c, rfl⟩
  simp [CloudTypesGroup.append, hc, hcs c (List.mem_of_getLast? hc)]

theorem more_remark {md : ReportMetadata} {ws : List Str} {w : Str} {g g' : Group}
    (h : Remark (reportHour md) ws g) (hne : ws ≠ [])
    (ha : g.append w .RMK md = .ok (g', .APPENDED)) : Remark (reportHour md) (ws ++ [w]) g' := by
  cases h with
  | keyword => cases ha
  | fixed h => rw [fixed_closed h] at ha; cases ha
  | missing h =>
    rw [missing_append h] at ha
    split at ha
    · cases ha
      subst w
      exact .missingSaid h
    · cases ha
  | missingSaid h => rw [missing_closed h] at ha; cases ha
  | wind h =>
    obtain ⟨x, rfl, hx⟩ := app_inj (mk := .wind) ha
    exact .wind ((C63_history .RMK md _ _).mp
      ((taken_snoc hne w x).mpr ⟨_, (C63_history .RMK md _ _).mpr h, hx⟩))
  | visibility h =>
    obtain ⟨x, rfl, hx⟩ := app_inj (mk := .visibility) ha
    exact .visibility ((C64_history _ _).mp ((taken_snoc hne w x).mpr ⟨_, (C64_history _ _).mpr h, hx⟩))
  | cloud h =>
    obtain ⟨x, rfl, hx⟩ := app_inj (mk := .cloud) ha
    exact .cloud ((C72_clouds _ _).mp ((taken_snoc hne w x).mpr ⟨_, (C72_clouds _ _).mpr h, hx⟩))
  | events => cases ha
  | lightningSensor =>
    obtain ⟨x, rfl, hx⟩ := app_inj (mk := .weather) ha
    rcases (C42_words _ _ _ _ (by simp)).mp hx with ⟨h, -⟩ | ⟨-, rfl, rfl⟩ | ⟨h, -⟩
    · cases h
    · exact .lightningSensorTemporarily
    · cases h
  | lightningSensorTemporarily =>
    obtain ⟨x, rfl, hx⟩ := app_inj (mk := .weather) ha
    rcases (C42_words _ _ _ _ (by simp)).mp hx with ⟨h, -⟩ | ⟨h, -⟩ | ⟨-, rfl, rfl⟩
    · cases h
    · cases h
    · exact .lightningSensorUnavailable
  | lightningSensorUnavailable => cases ha
  | temperature => cases ha
  | pressure => cases ha
  | seaLevelPressure => cases ha
  | stationPressure => cases ha
  | sixHourly h =>
    simp only [Group.append] at ha
    split at ha
    · cases ha
    · rename_i r hr
      obtain ⟨h1, h2⟩ := Prod.mk.inj (Except.ok.inj ha)
      obtain ⟨x, n, e, hs⟩ := six_step h (by rw [hr, ← h2])
      rw [← h1, e]
      exact .sixHourly hs
  | daily => cases ha
  | precipitation h =>
    simp only [Group.append, amount_closed h] at ha
    cases ha
  | snowIncreasing =>
    simp only [Group.append] at ha
    rcases snincr_append w with ⟨p, q, hpq, e⟩ | e
    · rw [e] at ha
      cases ha
      exact .snowIncrease hpq
    · rw [e] at ha
      cases ha
  | snowIncrease h =>
    simp only [Group.append, snincr_closed h] at ha
    cases ha
  | tendency => cases ha
  | @cloudTypes _ cs h0 h8 hf =>
    simp only [Group.append] at ha
    split at ha
    · cases ha
    · rename_i r hr
      obtain ⟨h1, h2⟩ := Prod.mk.inj (Except.ok.inj ha)
      obtain ⟨hl, -, c, hc, e⟩ := (C43_append ⟨cs⟩ r.1 w).mp (by rw [hr, ← h2])
      rw [← h1, e]
      refine .cloudTypes (by simp) ?_ (List.rel_append hf (.cons hc .nil))
      have := hf.length_eq
      simp at hl ⊢
      omega
  | cloudOktas h0 hs hf =>
    simp only [Group.append, oktas_closed h0 hf] at ha
    cases ha
  | cloudCodes => cases ha
  | lightning h =>
    obtain ⟨x, rfl, hx⟩ := app_inj (mk := .lightning) ha
    obtain ⟨c1, c2, ht⟩ := (C60_history _ _).mp ((taken_snoc hne w x).mpr ⟨_, (C60_history _ _).mpr ⟨_, _, h⟩, hx⟩)
    exact .lightning ht
  | vicinity h =>
    obtain ⟨x, rfl, hx⟩ := app_inj (mk := .vicinity) ha
    obtain ⟨c1, c2, ht⟩ := (C61_history _ _).mp ((taken_snoc hne w x).mpr ⟨_, (C61_history _ _).mpr ⟨_, _, h⟩, hx⟩)
    exact .vicinity ht
  | misc h =>
    obtain ⟨x, rfl, hx⟩ := app_inj (mk := .misc) ha
    exact .misc ((C62_history .RMK _ _).mp ((taken_snoc hne w x).mpr ⟨_, (C62_history .RMK _ _).mpr h, hx⟩))

theorem reads_remark {md : ReportMetadata} {ws : List Str} {g : Group} (h : Reads .RMK md ws g) :
    Remark (reportHour md) ws g := by
  induction h with
  | first h => exact first_remark h
  | more hr ha ih => exact more_remark ih hr.ne_nil ha

/-! ### What is written so is read -/

theorem reads_history {G : Type} {parse : Str → Option G} {append : G → Str → G × AppendResult} {mk : G → Group}
    {p : ReportPart} {md : ReportMetadata} (i : Nat)
    (h1 : ∀ w g, parse w = some g → recognise i w p md = .ok (some (mk g)))
    (h2 : ∀ g w g', append g w = (g', .APPENDED) → (mk g).append w p md = .ok (mk g', .APPENDED))
    {ws : List Str} {g : G} (h : taken parse append ws = some g) : Reads p md ws (mk g) := by
  induction ws using List.reverseRecOn generalizing g with
  | nil => cases h
  | append_singleton ws w ih =>
    by_cases hne : ws = []
    · subst hne
      rw [List.nil_append, taken_one] at h
      exact reads_one (h1 _ _ h)
    · obtain ⟨g0, h0, ha⟩ := (taken_snoc hne w g).mp h
      exact .more (ih h0) (h2 _ _ _ ha)

theorem forall2_snoc {A B : Type} {R : A → B → Prop} {as : List A} {a : A} {bs : List B}
    (h : List.Forall₂ R (as ++ [a]) bs) : ∃ bs' b, bs = bs' ++ [b] ∧ List.Forall₂ R as bs' ∧ R a b := by
  induction as generalizing bs with
  | nil =>
    cases h with
    | cons h1 h2 => cases h2; exact ⟨[], _, rfl, .nil, h1⟩
  | cons x as ih =>
    cases h with
    | @cons _ y _ _ h1 h2 =>
      obtain ⟨bs', b, rfl, h3, h4⟩ := ih h2
      exact ⟨y :: bs', b, rfl, .cons h1 h3, h4⟩

theorem reads_types {md : ReportMetadata} {ws : List Str} {cs : List CloudType} (hne : ws ≠ []) (h8 : ws.length ≤ 8)
    (hf : List.Forall₂ TypeLayerText ws cs) : Reads .RMK md ws (.cloudTypes ⟨cs⟩) := by
  induction ws using List.reverseRecOn generalizing cs with
  | nil => exact absurd rfl hne
  | append_singleton ws w ih =>
    obtain ⟨cs', c, rfl, hf1, hc⟩ := forall2_snoc hf
    · simp at h8
      by_cases h0 : ws = []
      · subst h0
        cases hf1
        exact reads_one (i := 16) (by simp [recognise, (C43_parse w ⟨[c]⟩).mpr (Or.inl ⟨c, hc, rfl⟩)])
      · refine .more (ih h0 (by omega) hf1) ?_
        have hl : cs'.length = ws.length := hf1.length_eq.symm
        obtain ⟨x, hx⟩ : ∃ x, cs'.getLast? = some x := by
          cases h : cs'.getLast? with
          | none =>
            rw [List.getLast?_eq_none_iff] at h
            subst h
            simp at hl
            exact absurd hl.symm (by simpa using h0)
          | some c => exact ⟨c, rfl⟩
        have hr : x.ht.isReported = true := by
          have hm := List.mem_of_getLast? hx
          obtain ⟨e, h⟩ := List.forall₂_iff_get.mp hf1
          obtain ⟨n, hn, rfl⟩ := List.getElem_of_mem hm
          obtain ⟨t, k, a, b, -, -, -, -, e⟩ := h n (by omega) hn
          rw [show cs'[n] = cs'.get ⟨n, hn⟩ from rfl, e]
          rfl
        have := (C43_append ⟨cs'⟩ ⟨cs' ++ [c]⟩ w).mpr ⟨by simp; omega, ⟨x, by simp [hx], hr⟩, c, hc, rfl⟩
        simp only [Group.append, this]

theorem remark_reads {md : ReportMetadata} {ws : List Str} {g : Group} (h : Remark (reportHour md) ws g) :
    Reads .RMK md ws g := by
  have weather : ∀ {s g}, WeatherGroup.parse s .RMK md = .ok (some g) → Reads .RMK md [s] (.weather g) := by
    intro s g h
    refine reads_one (i := 7) ?_
    simp only [recognise, h]
    rfl
  have temp : ∀ {s g}, TemperatureGroup.parse s .RMK = some g → Reads .RMK md [s] (.temperature g) := by
    intro s g h
    exact reads_one (i := 8) (by simp [recognise, h])
  have pres : ∀ {s g}, PressureGroup.parse s .RMK = some g → Reads .RMK md [s] (.pressure g) := by
    intro s g h
    exact reads_one (i := 9) (by simp [recognise, h])
  have prec : ∀ {s g}, PrecipitationGroup.parse s .RMK md = some g → Reads .RMK md [s] (.precipitation g) := by
    intro s g h
    exact reads_one (i := 13) (by simp [recognise, h])
  have tend : ∀ {s g}, PressureTendencyGroup.parse s .RMK = some g → Reads .RMK md [s] (.pressureTendency g) := by
    intro s g h
    exact reads_one (i := 15) (by simp [recognise, h])
  have missing : ∀ {s g g'}, (s, g, g') ∈ missingWords → Reads .RMK md [s] g := by
    intro s g g' h
    simp only [missingWords, List.mem_cons, Prod.mk.injEq, List.not_mem_nil, or_false] at h
    rcases h with ⟨rfl, rfl, rfl⟩ | ⟨rfl, rfl, rfl⟩ | ⟨rfl, rfl, rfl⟩ | ⟨rfl, rfl, rfl⟩ | ⟨rfl, rfl, rfl⟩ |
      ⟨rfl, rfl, rfl⟩
    · exact weather ((C42_remark _ _ _).mpr (by simp))
    · exact temp ((C51_remark _ _).mpr (Or.inl ⟨rfl, rfl⟩))
    · exact temp ((C51_remark _ _).mpr (Or.inr (Or.inl ⟨rfl, rfl⟩)))
    · exact pres ((C52_remark _ _).mpr (Or.inr (Or.inr (Or.inl ⟨rfl, rfl⟩))))
    · exact prec ((C56_remark _ _ _).mpr (Or.inl ⟨_, _, by simp [precipitationWords], rfl⟩))
    · exact prec ((C56_remark _ _ _).mpr (Or.inl ⟨_, _, by simp [precipitationWords], rfl⟩))
  have sensor : Reads .RMK md [c!"TS/LTNG"] (.weather { t := .TS_LTNG_TEMPO_UNAVBL, incompleteText := .TSLTNG }) :=
    weather ((C42_remark _ _ _).mpr (by simp))
  have snow : Reads .RMK md [c!"SNINCR"]
      (.precipitation ⟨.SNOW_INCREASING_RAPIDLY, ⟨none, .MM⟩, ⟨none, .MM⟩, false⟩) :=
    prec ((C56_remark _ _ _).mpr (Or.inl ⟨_, _, by simp [precipitationWords], rfl⟩))
  cases h with
  | keyword hk => exact reads_one (i := 0) (by simp [recognise, keyword_parse_iff.mpr hk])
  | fixed h =>
    simp only [fixedWords, List.mem_cons, Prod.mk.injEq, List.not_mem_nil, or_false] at h
    rcases h with ⟨rfl, rfl⟩ | ⟨rfl, rfl⟩ | ⟨rfl, rfl⟩ | ⟨rfl, rfl⟩ | ⟨rfl, rfl⟩ | ⟨rfl, rfl⟩ | ⟨rfl, rfl⟩
    · exact weather ((C42_remark _ _ _).mpr (by simp))
    · exact weather ((C42_remark _ _ _).mpr (by simp))
    · exact pres ((C52_remark _ _).mpr (Or.inr (Or.inl ⟨rfl, rfl⟩)))
    · exact prec ((C56_remark _ _ _).mpr (Or.inl ⟨_, _, by simp [precipitationWords], rfl⟩))
    · exact prec ((C56_remark _ _ _).mpr (Or.inl ⟨_, _, by simp [precipitationWords], rfl⟩))
    · exact tend ((C53_tendency _ _).mpr (Or.inl ⟨rfl, rfl⟩))
    · exact tend ((C53_tendency _ _).mpr (Or.inr (Or.inl ⟨rfl, rfl⟩)))
  | missing h => exact missing h
  | missingSaid h =>
    refine .more (ws := [_]) (missing h) ?_
    rw [missing_append h, if_pos rfl]
  | wind h => exact reads_taken ((C63_history .RMK md _ _).mpr h)
  | visibility h =>
    exact reads_history 5 (fun w g h => by simp [recognise, h]) (fun g w g' h => by simp [Group.append, h])
      ((C64_history _ _).mpr h)
  | cloud h =>
    exact reads_history 6 (fun w g h => by simp [recognise, h]) (fun g w g' h => by simp [Group.append, h])
      ((C72_clouds _ _).mpr h)
  | @events hr fs es h1 h2 h3 h4 =>
    obtain ⟨rt, hrt, e⟩ := Option.map_eq_some_iff.mp h1
    subst e
    exact weather ((C42_remark _ _ _).mpr (Or.inr (Or.inr (Or.inr (Or.inr ⟨rt, fs, es, hrt, h2, h3, rfl, h4, rfl⟩)))))
  | lightningSensor => exact sensor
  | lightningSensorTemporarily => exact .more (ws := [_]) sensor rfl
  | lightningSensorUnavailable =>
    exact .more (ws := [_, _]) (.more (ws := [_]) sensor (g' := .weather
      { t := .TS_LTNG_TEMPO_UNAVBL, incompleteText := .TSLTNG_TEMPO }) rfl) rfl
  | temperature ht hd => exact temp ((C51_remark _ _).mpr (Or.inr (Or.inr ⟨_, _, ht, hd, rfl, rfl⟩)))
  | pressure hq => exact pres ((C52_remark _ _).mpr (Or.inl ⟨_, hq, rfl⟩))
  | seaLevelPressure hn =>
    exact pres ((C52_remark _ _).mpr (Or.inr (Or.inr (Or.inr (Or.inl ⟨_, hn, rfl, rfl⟩)))))
  | stationPressure hn hs =>
    exact pres ((C52_remark _ _).mpr (Or.inr (Or.inr (Or.inr (Or.inr ⟨_, hn, rfl, hs⟩)))))
  | sixHourly h => exact six_reads h
  | daily hn hn' =>
    exact reads_one (i := 12) (by
      simp only [recognise, (C44_observed _ _).mpr (Or.inr (Or.inr ⟨_, _, _, _, hn, hn', rfl, rfl⟩)), Option.map_some])
  | precipitation hm hp =>
    exact prec ((C56_remark _ _ _).mpr (Or.inr ⟨_, _, _, _, _, _, _, hm, hp, rfl, rfl⟩))
  | snowIncreasing => exact snow
  | @snowIncrease s p q h =>
    refine .more (ws := [_]) snow ?_
    have h0 := (C56_append c!"SNINCR" s .RMK {} ⟨.SNOW_INCREASING_RAPIDLY, ⟨none, .MM⟩, ⟨none, .MM⟩, false⟩
      ((C56_remark _ _ _).mpr (Or.inl ⟨_, _, by simp [precipitationWords], rfl⟩))).1 rfl
    simp only [Group.append, h0.1 p q h]
  | tendency hc hr => exact tend ((C53_tendency _ _).mpr (Or.inr (Or.inr ⟨_, _, _, _, hc, hr, rfl, rfl⟩)))
  | cloudTypes hne h8 hf => exact reads_types hne h8 hf
  | cloudOktas hne hs hf =>
    exact reads_one (i := 16) (by
      simp only [recognise, (C43_parse _ _).mpr (Or.inr ⟨_, _, hne, hs, rfl, hf, rfl⟩), Option.map_some])
  | cloudCodes ha hb hc =>
    exact reads_one (i := 17) (by
      simp only [recognise, (C58_clouds _ _).mpr ⟨_, _, _, rfl, ha, hb, hc⟩, Option.map_some])
  | lightning h =>
    exact reads_history 18 (fun w g h => by simp [recognise, h]) (fun g w g' h => by simp [Group.append, h])
      ((C60_history _ _).mpr ⟨_, _, h⟩)
  | vicinity h =>
    exact reads_history 19 (fun w g h => by simp [recognise, h]) (fun g w g' h => by simp [Group.append, h])
      ((C61_history _ _).mpr ⟨_, _, h⟩)
  | misc h =>
    exact reads_history 20 (fun w g h => by simp [recognise, h]) (fun g w g' h => by simp [Group.append, h])
      ((C62_history .RMK _ _).mpr h)

/-- C72. In the remarks of a report words make up a group if and only if they are one of the listed
remarks, and the group is the one listed. -/
theorem C72_remark (md : ReportMetadata) (ws : List Str) (g : Group) :
    Reads .RMK md ws g ↔ Remark (md.reportTime.map (·.hourValue)) ws g :=
  ⟨reads_remark, remark_reads⟩

/-! ### Cases -/

example : Remark (some 9) [c!"PK", c!"WND", c!"28045/15"]
    (.wind { windType := .PEAK_WIND, windDir := ⟨280, .VALUE_DEGREES⟩, wSpeed := ⟨some 45, .KNOTS⟩,
             evTime := some { hourValue := 9, minuteValue := 15 } }) :=
  .wind (.peakWind (d := 28) (v := 45) (s := c!"15") rfl (by omega) (by omega) (.minutes (m := 15) rfl (by omega)))

example : Remark none [c!"SLP134"] (.pressure ⟨.OBSERVED_SLP, ⟨some (slpOf 134), .HECTOPASCAL⟩, false⟩) :=
  .seaLevelPressure (n := 134) (by omega)

example : Remark none [c!"PCPN", c!"MISG"] (.precipitation ⟨.PCPN_MISG, ⟨none, .MM⟩, ⟨none, .MM⟩, false⟩) :=
  .missingSaid (List.mem_of_getElem? (i := 5) rfl)

example : Remark none [c!"10066", c!"21012"]
    (.minMaxTemperature { t := .OBSERVED_6_HOURLY, maxTemp := remarkTemperature false 66,
                          minTemp := remarkTemperature true 12 }) :=
  .sixHourly (.maxMin (ms := []) (ns := []) (b := false) (n := 66) (b' := true) (n' := 12) (by simp) (by simp)
    (by omega) (by omega))

end Metaf.Props
