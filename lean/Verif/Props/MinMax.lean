import Verif.Model.GroupsC
import Verif.Spec.ForecastTemperature
import Verif.Proofs.RegexText
import Verif.Props.Values

/-!
C44: minimum and maximum temperatures.
-/

set_option linter.unusedSectionVars false

namespace Metaf.Props

open Metaf.Spec MinMaxTemperatureGroup

variable [FloatSem]

/-! ### Forecast temperatures -/

/-- Sub-matches for a forecast temperature. -/
def forecastCaps (f : ForecastTemperature) : Caps :=
  [(3, decimal 2 f.day ++ decimal 2 f.hour), (2, (if f.below then c!"M" else []) ++ decimal 2 f.degrees)] ++
    (match f.label with | .max => [(1, c!"X")] | .min => [(1, c!"N")] | .none => [])

theorem forecast_match (s : Str) (c : Caps) :
    forecastRgx.Match s c ↔ ∃ f : ForecastTemperature, f.Ok ∧ s = f.text ∧ c = forecastCaps f := by
  simp only [forecastRgx, ↓Rx.match_two_pairs, ↓Rx.match_digits2, Rx.match_seq, Rx.match_cap, Rx.match_chr,
    Rx.match_opt, Rx.match_oneOf]
  constructor
  · rintro ⟨_, _, _, _, ⟨rfl, rfl⟩, ⟨_, _, _, _, hl, ⟨_, _, _, _, ⟨_, ⟨_, _, _, _, hM,
      ⟨rfl, n, hn, rfl⟩, rfl, rfl⟩, rfl⟩, ⟨_, _, _, _, ⟨rfl, rfl⟩, ⟨_, _, _, _,
      ⟨_, ⟨rfl, d, h, hd, hh, rfl⟩, rfl⟩, ⟨rfl, rfl⟩, rfl, rfl⟩, rfl, rfl⟩, rfl, rfl⟩, rfl, rfl⟩,
      rfl, rfl⟩
    rcases hl with ⟨_, ⟨x, hx, rfl, rfl⟩, rfl⟩ | ⟨rfl, rfl⟩
    · simp only [List.mem_cons, List.not_mem_nil, or_false] at hx
      rcases hx with rfl | rfl
      · rcases hM with ⟨rfl, rfl⟩ | ⟨rfl, rfl⟩
        · exact ⟨⟨.max, true, n, d, h⟩, ⟨hn, hd, hh⟩, rfl, rfl⟩
        · exact ⟨⟨.max, false, n, d, h⟩, ⟨hn, hd, hh⟩, rfl, rfl⟩
      · rcases hM with ⟨rfl, rfl⟩ | ⟨rfl, rfl⟩
        · exact ⟨⟨.min, true, n, d, h⟩, ⟨hn, hd, hh⟩, rfl, rfl⟩
        · exact ⟨⟨.min, false, n, d, h⟩, ⟨hn, hd, hh⟩, rfl, rfl⟩
    · rcases hM with ⟨rfl, rfl⟩ | ⟨rfl, rfl⟩
      · exact ⟨⟨.none, true, n, d, h⟩, ⟨hn, hd, hh⟩, rfl, rfl⟩
      · exact ⟨⟨.none, false, n, d, h⟩, ⟨hn, hd, hh⟩, rfl, rfl⟩
  · rintro ⟨⟨l, b, n, d, h⟩, ⟨hn, hd, hh⟩, rfl, rfl⟩
    simp only at hn hd hh
    refine ⟨c!"T", _, [], _, ⟨rfl, rfl⟩, ⟨l.text, _, (match l with
      | .max => [(1, c!"X")] | .min => [(1, c!"N")] | .none => []), _, ?_,
      ⟨(if b then c!"M" else []) ++ decimal 2 n, _, _, _, ⟨[], ⟨_, _, [], [], ?_, ⟨rfl, n, hn, rfl⟩, rfl, rfl⟩, rfl⟩,
        ⟨c!"/", _, [], _, ⟨rfl, rfl⟩, ⟨decimal 2 d ++ decimal 2 h, _, _, [], ⟨[], ⟨rfl, d, h, hd, hh, rfl⟩, rfl⟩,
          ⟨rfl, rfl⟩, rfl, rfl⟩, rfl, rfl⟩, rfl, rfl⟩, rfl, rfl⟩, ?_, ?_⟩
    · cases l
      · exact Or.inl ⟨[], ⟨'X', by decide, rfl, rfl⟩, rfl⟩
      · exact Or.inl ⟨[], ⟨'N', by decide, rfl, rfl⟩, rfl⟩
      · exact Or.inr ⟨rfl, rfl⟩
    · cases b
      · exact Or.inr ⟨rfl, rfl⟩
      · exact Or.inl ⟨rfl, rfl⟩
    · simp [ForecastTemperature.text]
    · simp [forecastCaps]

theorem digitChar_mod_ne {n : Nat} {c : Char} (h : isDigit c = false) : Nat.digitChar (n % 10) ≠ c :=
  digitChar_ne h (Nat.mod_lt _ (by decide))

theorem decimal_two_inj {n m : Nat} (hn : n < 100) (hm : m < 100)
    (h : decimal 2 n = decimal 2 m) : n = m := decimal_inj (by simpa using hn) (by simpa using hm) h

theorem forecast_inj {f g : ForecastTemperature} (hf : f.Ok) (hg : g.Ok) (h : f.text = g.text) : f = g := by
  obtain ⟨l, b, n, d, t⟩ := f
  obtain ⟨l', b', n', d', t'⟩ := g
  obtain ⟨h1, h2, h3⟩ := hf
  obtain ⟨h1', h2', h3'⟩ := hg
  simp only at h1 h2 h3 h1' h2' h3'
  have key : l = l' ∧ b = b' ∧ decimal 2 n = decimal 2 n' ∧ decimal 2 d = decimal 2 d' ∧
      decimal 2 t = decimal 2 t' := by
    have dM : ∀ n, Nat.digitChar (n % 10) ≠ 'M' := fun n => digitChar_mod_ne rfl
    have dX : ∀ n, Nat.digitChar (n % 10) ≠ 'X' := fun n => digitChar_mod_ne rfl
    have dN : ∀ n, Nat.digitChar (n % 10) ≠ 'N' := fun n => digitChar_mod_ne rfl
    have dM' : ∀ n, 'M' ≠ Nat.digitChar (n % 10) := fun n => (digitChar_mod_ne rfl).symm
    have dX' : ∀ n, 'X' ≠ Nat.digitChar (n % 10) := fun n => (digitChar_mod_ne rfl).symm
    have dN' : ∀ n, 'N' ≠ Nat.digitChar (n % 10) := fun n => (digitChar_mod_ne rfl).symm
    cases l <;> cases l' <;> cases b <;> cases b' <;>
      simp_all [ForecastTemperature.text, ExtremeLabel.text, decimal_two]
  obtain ⟨rfl, rfl, e1, e2, e3⟩ := key
  rw [decimal_two_inj h1 h1' e1, decimal_two_inj h2 h2' e2, decimal_two_inj h3 h3' e3]

/-- The group for a single forecast temperature. Without a letter it is incomplete. -/
def forecastGroup (f : ForecastTemperature) : MinMaxTemperatureGroup :=
  match f.label with
  | .min => { t := .FORECAST, minTemp := f.temperature, minTime := some f.time }
  | .max => { t := .FORECAST, maxTemp := f.temperature, maxTime := some f.time }
  | .none => { t := .FORECAST, minTemp := f.temperature, minTime := some f.time,
               maxTemp := f.temperature, maxTime := some f.time, isIncomplete := true }

theorem forecast_temperature {f : ForecastTemperature} (h : f.Ok) :
    Temperature.fromString ((if f.below then c!"M" else []) ++ decimal 2 f.degrees) = some f.temperature := by
  rw [C27_two_digits]
  obtain ⟨l, b, n, d, t⟩ := f
  cases b
  · exact Or.inr (Or.inl ⟨n, h.1, rfl, rfl⟩)
  · exact Or.inr (Or.inr ⟨n, h.1, rfl, rfl⟩)

theorem fromForecast_iff (s : Str) (g : MinMaxTemperatureGroup) :
    fromForecast s = some g ↔ ∃ f : ForecastTemperature, f.Ok ∧ s = f.text ∧ g = forecastGroup f := by
  have hr := regexMatch_form forecast_match (fun f f' hf hf' h => by rw [forecast_inj hf hf' h])
  have key : ∀ f : ForecastTemperature, f.Ok → fromForecast f.text = some (forecastGroup f) := by
    intro f hf
    unfold fromForecast
    rw [(hr f.text _).mpr ⟨f, hf, rfl, rfl⟩]
    have e1 : (forecastCaps f).str 2 = (if f.below then c!"M" else []) ++ decimal 2 f.degrees := rfl
    have e2 : (forecastCaps f).str 3 = decimal 2 f.day ++ decimal 2 f.hour := rfl
    have e3 : (forecastCaps f).str 1 = f.label.text := by
      obtain ⟨l, b, n, d, t⟩ := f
      cases l <;> rfl
    simp only [e1, e2, e3]
    rw [forecast_temperature hf, (C25_ddhh _ f.time).mpr ⟨f.day, f.hour, hf.2.1, hf.2.2, rfl, rfl⟩]
    obtain ⟨l, b, n, d, t⟩ := f
    cases l <;> rfl
  constructor
  · intro h
    cases hm : regexMatch forecastRgx s with
    | none => rw [fromForecast, hm] at h; cases h
    | some m =>
      obtain ⟨f, hf, rfl, -⟩ := (hr s m).mp hm
      rw [key f hf] at h
      exact ⟨f, hf, rfl, (Option.some.inj h).symm⟩
  · rintro ⟨f, hf, rfl, rfl⟩
    exact key f hf

/-- C44: in a TAF, the texts recognised are exactly the forecast temperatures, and the group holds
the temperature and the time written as minimum (`TN`) or maximum (`TX`). -/
theorem C44_parse (s : Str) (g : MinMaxTemperatureGroup) :
    MinMaxTemperatureGroup.parse s .TAF = some g ↔
      ∃ f : ForecastTemperature, f.Ok ∧ s = f.text ∧
        (f.label = .min → g = { t := .FORECAST, minTemp := f.temperature, minTime := some f.time }) ∧
        (f.label = .max → g = { t := .FORECAST, maxTemp := f.temperature, maxTime := some f.time }) ∧
        (f.label = .none → g =
          { t := .FORECAST, minTemp := f.temperature, minTime := some f.time,
            maxTemp := f.temperature, maxTime := some f.time, isIncomplete := true }) := by
  have : MinMaxTemperatureGroup.parse s .TAF = fromForecast s := rfl
  rw [this, fromForecast_iff]
  refine exists_congr fun f => and_congr_right fun _ => and_congr_right fun _ => ?_
  obtain ⟨l, b, n, d, t⟩ := f
  cases l <;> simp [forecastGroup]

theorem temperature_value {f : ForecastTemperature} (h : f.Ok) :
    f.temperature.temperature = some ((if f.below then -(f.degrees : Int) else f.degrees : Int) : Rat) := by
  obtain ⟨x, h1, h2, -⟩ := C27_value f.temperature _ rfl (by
    have := h.1
    split <;> simp <;> omega)
  rw [h1, h2 rfl]

/-- C44: a second forecast temperature without a letter completes a first one: the lower temperature
becomes the minimum and the other the maximum, each with its time, in whichever order they came. -/
theorem C44_ordered (a b : ForecastTemperature) (ha : a.Ok) (hb : b.Ok) (la : a.label = .none)
    (lb : b.label = .none) :
    MinMaxTemperatureGroup.append (forecastGroup a) b.text = .ok
      (if b.lower a then
        { t := .FORECAST, minTemp := b.temperature, minTime := some b.time, maxTemp := a.temperature,
          maxTime := some a.time }
      else
        { t := .FORECAST, minTemp := a.temperature, minTime := some a.time, maxTemp := b.temperature,
          maxTime := some b.time }, .APPENDED) := by
  have hfb := (fromForecast_iff b.text (forecastGroup b)).mpr ⟨b, hb, rfl, rfl⟩
  have hta := temperature_value ha
  have htb := temperature_value hb
  obtain ⟨l, x, n, d, t⟩ := a
  obtain ⟨l', y, n', d', t'⟩ := b
  simp only at la lb
  subst la lb
  unfold MinMaxTemperatureGroup.append
  simp only [forecastGroup]
  unfold appendForecast
  rw [if_neg (by simp), hfb]
  simp only [forecastGroup, ne_eq, not_true_eq_false, if_false, Bool.not_true, Bool.false_eq_true]
  rw [hta, htb]
  cases x <;> cases y <;>
    simp [ForecastTemperature.lower, ForecastTemperature.temperature]
  · split <;> rfl
  · have h1 : (0 : Rat) ≤ n := Nat.cast_nonneg n
    have h2 : (0 : Rat) ≤ n' := Nat.cast_nonneg n'
    linarith
  · split <;> rfl

/-- C44: the minimum of two temperatures without letters is not above the maximum. -/
theorem C44_not_above (a b : ForecastTemperature) (ha : a.Ok) (hb : b.Ok) (la : a.label = .none)
    (lb : b.label = .none) (g : MinMaxTemperatureGroup) (r : AppendResult)
    (h : MinMaxTemperatureGroup.append (forecastGroup a) b.text = .ok (g, r)) :
    r = .APPENDED ∧ g.isIncomplete = false ∧
    ∃ x y, g.minTemp.temperature = some x ∧ g.maxTemp.temperature = some y ∧ x ≤ y := by
  rw [C44_ordered a b ha hb la lb] at h
  have hta := temperature_value ha
  have htb := temperature_value hb
  simp only [Except.ok.injEq, Prod.mk.injEq] at h
  obtain ⟨hg, rfl⟩ := h
  refine ⟨rfl, ?_⟩
  have h1 : (0 : Rat) ≤ a.degrees := Nat.cast_nonneg _
  have h2 : (0 : Rat) ≤ b.degrees := Nat.cast_nonneg _
  by_cases hl : b.lower a = true
  · rw [if_pos hl] at hg
    subst hg
    refine ⟨rfl, _, _, htb, hta, ?_⟩
    simp only [ForecastTemperature.lower] at hl
    cases hxa : a.below <;> cases hxb : b.below <;> rw [hxa, hxb] at hl <;> simp at hl ⊢ <;>
      first | exact_mod_cast hl.le | linarith
  · rw [if_neg hl] at hg
    subst hg
    refine ⟨rfl, _, _, hta, htb, ?_⟩
    simp only [ForecastTemperature.lower] at hl
    cases hxa : a.below <;> cases hxb : b.below <;> rw [hxa, hxb] at hl <;> simp at hl ⊢ <;>
      first | exact_mod_cast hl | linarith

/-- C44: `TX` and `TN` complete each other in both orders; the minimum is the one marked so, with its
time. -/
theorem C44_labelled (a b : ForecastTemperature) (ha : a.Ok) (hb : b.Ok) (la : a.label = .min)
    (lb : b.label = .max) :
    let g : MinMaxTemperatureGroup :=
      { t := .FORECAST, minTemp := a.temperature, minTime := some a.time,
        maxTemp := b.temperature, maxTime := some b.time }
    MinMaxTemperatureGroup.append (forecastGroup a) b.text = .ok (g, .APPENDED) ∧
      MinMaxTemperatureGroup.append (forecastGroup b) a.text = .ok (g, .APPENDED) := by
  have hfa := (fromForecast_iff a.text (forecastGroup a)).mpr ⟨a, ha, rfl, rfl⟩
  have hfb := (fromForecast_iff b.text (forecastGroup b)).mpr ⟨b, hb, rfl, rfl⟩
  obtain ⟨l, x, n, d, t⟩ := a
  obtain ⟨l', y, n', d', t'⟩ := b
  simp only at la lb
  subst la lb
  constructor
  · unfold MinMaxTemperatureGroup.append
    simp only [forecastGroup]
    unfold appendForecast
    rw [if_neg (by simp [Temperature.isReported]), hfb]
    simp [forecastGroup, Temperature.isReported, ForecastTemperature.temperature]
  · unfold MinMaxTemperatureGroup.append
    simp only [forecastGroup]
    unfold appendForecast
    rw [if_neg (by simp [Temperature.isReported]), hfa]
    simp [forecastGroup, Temperature.isReported, ForecastTemperature.temperature]

/-- C44: every other text leaves the group as it is. -/
theorem C44_other (a : ForecastTemperature) (s : Str)
    (h : ∀ b : ForecastTemperature, b.Ok → s = b.text →
      ¬ (a.label = .none ∧ b.label = .none) ∧ ¬ (a.label = .min ∧ b.label = .max) ∧
      ¬ (a.label = .max ∧ b.label = .min)) :
    MinMaxTemperatureGroup.append (forecastGroup a) s = .ok (forecastGroup a, .NOT_APPENDED) := by
  have ht : (forecastGroup a).t = .FORECAST := by
    unfold forecastGroup; split <;> rfl
  unfold MinMaxTemperatureGroup.append
  rw [ht]
  simp only
  unfold appendForecast
  split
  · rfl
  · cases hf : fromForecast s with
    | none => rfl
    | some n =>
      obtain ⟨b, hb, rfl, rfl⟩ := (fromForecast_iff s n).mp hf
      have := h b hb rfl
      obtain ⟨l, x, n, d, t⟩ := a
      obtain ⟨l', y, n', d', t'⟩ := b
      cases l <;> cases l' <;>
        simp_all [forecastGroup, Temperature.isReported, ForecastTemperature.temperature]

/-- C44: a complete group is not changed any more. -/
theorem C44_complete (g : MinMaxTemperatureGroup) (s : Str) (hmin : g.minTemp.tempValue.isSome = true)
    (hmax : g.maxTemp.tempValue.isSome = true) (hi : g.isIncomplete = false) :
    MinMaxTemperatureGroup.append g s = .ok (g, .NOT_APPENDED) := by
  unfold MinMaxTemperatureGroup.append
  cases g.t
  · simp [append6hourly, Temperature.isReported, hmin, hmax]
  · rfl
  · simp [appendForecast, Temperature.isReported, hmin, hmax, hi]

/-- C44: a group reported as valid is complete, and its minimum is below its maximum. -/
theorem C44_valid (g : MinMaxTemperatureGroup) (h : g.isValid = true) :
    g.isIncomplete = false ∧ ∀ x y, g.minTemp.temperature = some x → g.maxTemp.temperature = some y →
      x < y := by
  unfold MinMaxTemperatureGroup.isValid at h
  split at h
  · cases h
  · rename_i hi
    refine ⟨by simpa using hi, ?_⟩
    intro x y hx hy
    split at h
    · cases h
    · split at h
      · cases h
      · split at h
        · cases h
        · simpa [hx, hy] using h

/-! ### Observed temperatures -/

/-- A temperature as written in remarks: sign digit and tenths of degree. -/
def remarkTemperatureText (below : Bool) (tenths : Nat) : Str :=
  (if below then c!"1" else c!"0") ++ decimal 3 tenths

/-- The temperature written. -/
def remarkTemperature (below : Bool) (tenths : Nat) : Temperature :=
  ⟨some (if below then -(tenths : Int) else tenths), below && decide (0 < tenths), true⟩

theorem remarkTemperature_eq {b : Bool} {n : Nat} (h : n < 1000) :
    Temperature.fromRemarkString (remarkTemperatureText b n) = some (remarkTemperature b n) := by
  rw [C27_remark]
  refine ⟨n, h, ?_⟩
  cases b
  · exact Or.inl ⟨rfl, rfl⟩
  · exact Or.inr ⟨rfl, by simp [remarkTemperature]⟩

theorem match_remark {w : Str} {c : Caps} : Rx.Match (.oneOf c!"01" ⬝ .d ⬝ .d ⬝ .d) w c ↔
    c = [] ∧ ∃ b n, n < 1000 ∧ w = remarkTemperatureText b n := by
  rw [Rx.match_seq]
  simp only [Rx.match_digits3, Rx.match_oneOf]
  constructor
  · rintro ⟨_, _, _, _, ⟨x, hx, rfl, rfl⟩, ⟨rfl, n, hn, rfl⟩, rfl, rfl⟩
    simp only [List.mem_cons, List.not_mem_nil, or_false] at hx
    rcases hx with rfl | rfl
    · exact ⟨rfl, false, n, hn, rfl⟩
    · exact ⟨rfl, true, n, hn, rfl⟩
  · rintro ⟨rfl, b, n, hn, rfl⟩
    cases b
    · exact ⟨_, _, [], [], ⟨'0', by decide, rfl, rfl⟩, ⟨rfl, n, hn, rfl⟩, rfl, rfl⟩
    · exact ⟨_, _, [], [], ⟨'1', by decide, rfl, rfl⟩, ⟨rfl, n, hn, rfl⟩, rfl, rfl⟩

theorem remarkText_length (b : Bool) (n : Nat) : (remarkTemperatureText b n).length = 4 := by
  cases b <;> rfl

theorem daily_match (s : Str) (c : Caps) :
    daily24Rgx.Match s c ↔ ∃ f : (Bool × Nat) × (Bool × Nat), (f.1.2 < 1000 ∧ f.2.2 < 1000) ∧
      s = c!"4" ++ remarkTemperatureText f.1.1 f.1.2 ++ remarkTemperatureText f.2.1 f.2.2 ∧
      c = [(2, remarkTemperatureText f.2.1 f.2.2), (1, remarkTemperatureText f.1.1 f.1.2)] := by
  simp only [daily24Rgx, ↓match_remark, Rx.match_seq, Rx.match_cap, Rx.match_chr]
  constructor
  · rintro ⟨_, _, _, _, ⟨rfl, rfl⟩, ⟨_, _, _, _, ⟨_, ⟨rfl, b, n, hn, rfl⟩, rfl⟩,
      ⟨_, ⟨rfl, b', n', hn', rfl⟩, rfl⟩, rfl, rfl⟩, rfl, rfl⟩
    exact ⟨((b, n), (b', n')), ⟨hn, hn'⟩, rfl, rfl⟩
  · rintro ⟨⟨⟨b, n⟩, ⟨b', n'⟩⟩, ⟨hn, hn'⟩, rfl, rfl⟩
    exact ⟨_, _, [], _, ⟨rfl, rfl⟩, ⟨_, _, _, _, ⟨_, ⟨rfl, b, n, hn, rfl⟩, rfl⟩,
      ⟨_, ⟨rfl, b', n', hn', rfl⟩, rfl⟩, rfl, rfl⟩, rfl, rfl⟩

theorem from24hourly_iff (s : Str) (g : MinMaxTemperatureGroup) :
    from24hourly s = some g ↔ ∃ b n b' n', n < 1000 ∧ n' < 1000 ∧
      s = c!"4" ++ remarkTemperatureText b n ++ remarkTemperatureText b' n' ∧
      g = { t := .OBSERVED_24_HOURLY, maxTemp := remarkTemperature b n,
            minTemp := remarkTemperature b' n' } := by
  have hr := regexMatch_form daily_match (by
    rintro ⟨⟨b, n⟩, ⟨b', n'⟩⟩ ⟨⟨c, m⟩, ⟨c', m'⟩⟩ - - h
    simp only [List.append_assoc] at h
    have h := List.append_cancel_left h
    obtain ⟨h1, h2⟩ := List.append_inj h (by rw [remarkText_length, remarkText_length])
    simp only [h1, h2])
  have key : ∀ b n b' n', n < 1000 → n' < 1000 →
      from24hourly (c!"4" ++ remarkTemperatureText b n ++ remarkTemperatureText b' n') =
        some { t := .OBSERVED_24_HOURLY, maxTemp := remarkTemperature b n,
               minTemp := remarkTemperature b' n' } := by
    intro b n b' n' hn hn'
    unfold from24hourly
    rw [(hr _ _).mpr ⟨((b, n), (b', n')), ⟨hn, hn'⟩, rfl, rfl⟩]
    have e1 : Caps.str [(2, remarkTemperatureText b' n'), (1, remarkTemperatureText b n)] 1 =
      remarkTemperatureText b n := rfl
    have e2 : Caps.str [(2, remarkTemperatureText b' n'), (1, remarkTemperatureText b n)] 2 =
      remarkTemperatureText b' n' := rfl
    simp only [e1, e2, remarkTemperature_eq hn, remarkTemperature_eq hn']
  constructor
  · intro h
    cases hm : regexMatch daily24Rgx s with
    | none => rw [from24hourly, hm] at h; cases h
    | some m =>
      obtain ⟨⟨⟨b, n⟩, ⟨b', n'⟩⟩, ⟨hn, hn'⟩, rfl, -⟩ := (hr s m).mp hm
      rw [key b n b' n' hn hn'] at h
      exact ⟨b, n, b', n', hn, hn', rfl, (Option.some.inj h).symm⟩
  · rintro ⟨b, n, b', n', hn, hn', rfl, rfl⟩
    exact key b n b' n' hn hn'

theorem six_match (s : Str) (c : Caps) :
    sixHourlyRgx.Match s c ↔ ∃ f : Bool × Option (Bool × Nat), (∀ x ∈ f.2, x.2 < 1000) ∧
      s = (if f.1 then c!"1" else c!"2") ++
        (match f.2 with | some x => remarkTemperatureText x.1 x.2 | none => c!"////") ∧
      c = [(2, match f.2 with | some x => remarkTemperatureText x.1 x.2 | none => c!"////"),
        (1, if f.1 then c!"1" else c!"2")] := by
  unfold sixHourlyRgx
  rw [Rx.match_seq]
  simp only [Rx.match_cap, Rx.match_alt, match_remark, Rx.match_oneOf, Rx.match_lit]
  constructor
  · rintro ⟨_, _, _, _, ⟨_, ⟨x, hx, rfl, rfl⟩, rfl⟩, ⟨_, ht, rfl⟩, rfl, rfl⟩
    simp only [List.mem_cons, List.not_mem_nil, or_false] at hx
    rcases ht with ⟨rfl, b, n, hn, rfl⟩ | ⟨rfl, rfl⟩ <;> rcases hx with rfl | rfl
    · exact ⟨(true, some (b, n)), by rintro _ ⟨⟩; exact hn, rfl, rfl⟩
    · exact ⟨(false, some (b, n)), by rintro _ ⟨⟩; exact hn, rfl, rfl⟩
    · exact ⟨(true, none), by simp, rfl, rfl⟩
    · exact ⟨(false, none), by simp, rfl, rfl⟩
  · rintro ⟨⟨l, t⟩, hb, rfl, rfl⟩
    refine ⟨_, _, _, _, ⟨_, ⟨if l then '1' else '2', ?_, ?_, rfl⟩, rfl⟩,
      ⟨[], ?_, rfl⟩, rfl, ?_⟩
    · cases l <;> decide
    · cases l <;> rfl
    · cases t with
      | none => exact Or.inr ⟨rfl, rfl⟩
      | some x => exact Or.inl ⟨rfl, x.1, x.2, hb x rfl, rfl⟩
    · cases l <;> rfl

theorem from6hourly_iff (s : Str) (g : MinMaxTemperatureGroup) :
    from6hourly s = some g ↔
      ((s = c!"1////" ∨ s = c!"2////") ∧ g = { t := .OBSERVED_6_HOURLY }) ∨
      ∃ b n, n < 1000 ∧
        (s = c!"1" ++ remarkTemperatureText b n ∧
            g = { t := .OBSERVED_6_HOURLY, maxTemp := remarkTemperature b n } ∨
         s = c!"2" ++ remarkTemperatureText b n ∧
            g = { t := .OBSERVED_6_HOURLY, minTemp := remarkTemperature b n }) := by
  have hr := regexMatch_form six_match (by
    rintro ⟨l, t⟩ ⟨l', t'⟩ - - h
    obtain ⟨h1, h2⟩ := List.append_inj h (by cases l <;> cases l' <;> rfl)
    simp only [h1, h2])
  have hne : ∀ b n, remarkTemperatureText b n ≠ c!"////" := by
    intro b n
    cases b <;> simp [remarkTemperatureText]
  constructor
  · intro h
    unfold from6hourly at h
    cases hm : regexMatch sixHourlyRgx s with
    | none => rw [hm] at h; cases h
    | some m =>
      rw [hm] at h
      obtain ⟨⟨l, t⟩, hb, rfl, rfl⟩ := (hr s m).mp hm
      cases t with
      | none =>
        left
        refine ⟨by cases l; exact Or.inr rfl; exact Or.inl rfl, ?_⟩
        exact (Option.some.inj h).symm
      | some x =>
        obtain ⟨b, n⟩ := x
        right
        have hn : n < 1000 := hb _ rfl
        refine ⟨b, n, hn, ?_⟩
        have e2 : ∀ y, Caps.str [(2, remarkTemperatureText b n), (1, y)] 2 = remarkTemperatureText b n :=
          fun _ => rfl
        have e1 : ∀ y, Caps.str [(2, remarkTemperatureText b n), (1, y)] 1 = y := fun _ => rfl
        simp only [e1, e2] at h
        rw [if_neg (hne b n), remarkTemperature_eq hn] at h
        cases l
        · exact Or.inr ⟨rfl, (Option.some.inj h).symm⟩
        · exact Or.inl ⟨rfl, (Option.some.inj h).symm⟩
  · rintro (⟨rfl | rfl, rfl⟩ | ⟨b, n, hn, ⟨rfl, rfl⟩ | ⟨rfl, rfl⟩⟩)
    · unfold from6hourly
      rw [(hr c!"1////" _).mpr ⟨(true, none), by simp, rfl, rfl⟩]
      rfl
    · unfold from6hourly
      rw [(hr c!"2////" _).mpr ⟨(false, none), by simp, rfl, rfl⟩]
      rfl
    · unfold from6hourly
      rw [(hr (c!"1" ++ remarkTemperatureText b n) _).mpr ⟨(true, some (b, n)), by rintro _ ⟨⟩; exact hn, rfl, rfl⟩]
      have e2 : ∀ y, Caps.str [(2, remarkTemperatureText b n), (1, y)] 2 = remarkTemperatureText b n :=
        fun _ => rfl
      simp only [e2]
      rw [if_neg (hne b n), remarkTemperature_eq hn]
      rfl
    · unfold from6hourly
      rw [(hr (c!"2" ++ remarkTemperatureText b n) _).mpr ⟨(false, some (b, n)), by rintro _ ⟨⟩; exact hn, rfl, rfl⟩]
      have e2 : ∀ y, Caps.str [(2, remarkTemperatureText b n), (1, y)] 2 = remarkTemperatureText b n :=
        fun _ => rfl
      simp only [e2]
      rw [if_neg (hne b n), remarkTemperature_eq hn]
      rfl

/-- C44: in remarks, a 6-hourly maximum (`1`) or minimum (`2`), or a 24-hourly maximum and minimum
(`4`), is recognised with exactly the temperatures written. -/
theorem C44_observed (s : Str) (g : MinMaxTemperatureGroup) :
    MinMaxTemperatureGroup.parse s .RMK = some g ↔
      ((s = c!"1////" ∨ s = c!"2////") ∧ g = { t := .OBSERVED_6_HOURLY }) ∨
      (∃ b n, n < 1000 ∧
        (s = c!"1" ++ remarkTemperatureText b n ∧
            g = { t := .OBSERVED_6_HOURLY, maxTemp := remarkTemperature b n } ∨
         s = c!"2" ++ remarkTemperatureText b n ∧
            g = { t := .OBSERVED_6_HOURLY, minTemp := remarkTemperature b n })) ∨
      (∃ b n b' n', n < 1000 ∧ n' < 1000 ∧
        s = c!"4" ++ remarkTemperatureText b n ++ remarkTemperatureText b' n' ∧
        g = { t := .OBSERVED_24_HOURLY, maxTemp := remarkTemperature b n,
              minTemp := remarkTemperature b' n' }) := by
  rw [← or_assoc, ← from6hourly_iff, ← from24hourly_iff]
  have : MinMaxTemperatureGroup.parse s .RMK =
      match from6hourly s with | some h6 => some h6 | none => from24hourly s := rfl
  rw [this]
  cases h6 : from6hourly s with
  | none => simp
  | some g' =>
    simp only [Option.some.injEq]
    constructor
    · exact Or.inl
    · rintro (h | h)
      · exact h
      · exfalso
        obtain ⟨b, n, b', n', -, -, rfl, -⟩ := (from24hourly_iff _ _).mp h
        rcases (from6hourly_iff _ _).mp h6 with ⟨h | h, -⟩ | ⟨_, _, -, ⟨h, -⟩ | ⟨h, -⟩⟩ <;>
          simp [List.cons_append] at h

/-- C44: the second 6-hourly temperature completes the first; neither is changed. -/
theorem C44_six_hourly (b b' : Bool) (n n' : Nat) (hn : n < 1000) (hn' : n' < 1000) :
    let g : MinMaxTemperatureGroup :=
      { t := .OBSERVED_6_HOURLY, maxTemp := remarkTemperature b n,
        minTemp := remarkTemperature b' n' }
    MinMaxTemperatureGroup.append { t := .OBSERVED_6_HOURLY, maxTemp := remarkTemperature b n }
        (c!"2" ++ remarkTemperatureText b' n') = .ok (g, .APPENDED) ∧
      MinMaxTemperatureGroup.append { t := .OBSERVED_6_HOURLY, minTemp := remarkTemperature b' n' }
        (c!"1" ++ remarkTemperatureText b n) = .ok (g, .APPENDED) := by
  have h1 := (from6hourly_iff _ _).mpr (Or.inr ⟨b, n, hn, Or.inl ⟨rfl, rfl⟩⟩)
  have h2 := (from6hourly_iff _ _).mpr (Or.inr ⟨b', n', hn', Or.inr ⟨rfl, rfl⟩⟩)
  constructor
  · simp only [MinMaxTemperatureGroup.append, append6hourly, h2]
    simp [Temperature.isReported, remarkTemperature]
  · simp only [MinMaxTemperatureGroup.append, append6hourly, h1]
    simp [Temperature.isReported, remarkTemperature]

end Metaf.Props

namespace Metaf.Props

attribute [local instance] exactFloat

/-- "T05/0412Z" and "TM01/0503Z". -/
example : MinMaxTemperatureGroup.parse c!"T05/0412Z" .TAF = some (forecastGroup ⟨.none, false, 5, 4, 12⟩) ∧
    MinMaxTemperatureGroup.append (forecastGroup ⟨.none, false, 5, 4, 12⟩) c!"TM01/0503Z" = .ok
      ({ t := .FORECAST, minTemp := ⟨some (-1), true, false⟩, minTime := some ⟨some 5, 3, 0⟩,
         maxTemp := ⟨some 5, false, false⟩, maxTime := some ⟨some 4, 12, 0⟩ }, .APPENDED) := by
  decide +kernel

/-- `TN` above `TX` is kept as written; the group is then reported as not valid. -/
example : MinMaxTemperatureGroup.append (forecastGroup ⟨.min, false, 5, 4, 12⟩) c!"TX01/0503Z" = .ok
      ({ t := .FORECAST, minTemp := ⟨some 5, false, false⟩, minTime := some ⟨some 4, 12, 0⟩,
         maxTemp := ⟨some 1, false, false⟩, maxTime := some ⟨some 5, 3, 0⟩ }, .APPENDED) ∧
    MinMaxTemperatureGroup.isValid
      { t := .FORECAST, minTemp := ⟨some 5, false, false⟩, minTime := some ⟨some 4, 12, 0⟩,
        maxTemp := ⟨some 1, false, false⟩, maxTime := some ⟨some 5, 3, 0⟩ } = false := by
  decide +kernel

end Metaf.Props
