import Verif.Spec.Summary
import Verif.Proofs.Util

/-!
C89: the cover of the sky in the summary of the current weather; C90: the codes of weather in it
(`/repo/examples/summary.cpp`).
-/

namespace Metaf.Props

open Metaf Metaf.Spec Metaf.Summary

/-! ### C90: codes of weather -/

def allQualifiers : List Qualifier := [.NONE, .RECENT, .VICINITY, .LIGHT, .MODERATE, .HEAVY]

def allDescriptors : List Descriptor :=
  [.NONE, .SHALLOW, .PARTIAL, .PATCHES, .LOW_DRIFTING, .BLOWING, .SHOWERS, .THUNDERSTORM, .FREEZING]

def allWeather : List Weather :=
  [.NOT_REPORTED, .DRIZZLE, .RAIN, .SNOW, .SNOW_GRAINS, .ICE_CRYSTALS, .ICE_PELLETS, .HAIL,
   .SMALL_HAIL, .UNDETERMINED, .MIST, .FOG, .SMOKE, .VOLCANIC_ASH, .DUST, .SAND, .HAZE, .SPRAY,
   .DUST_WHIRLS, .SQUALLS, .FUNNEL_CLOUD, .SANDSTORM, .DUSTSTORM]

theorem mem_qualifiers (q : Qualifier) : q ∈ allQualifiers := by cases q <;> decide
theorem mem_descriptors (d : Descriptor) : d ∈ allDescriptors := by cases d <;> decide
theorem mem_weather (w : Weather) : w ∈ allWeather := by cases w <;> decide

theorem code_table : ∀ q ∈ allQualifiers, ∀ d ∈ allDescriptors, ∀ w ∈ allWeather,
    d ≠ .THUNDERSTORM → (phenomenaFromWeatherGroup q d w).num = codeFor q d w := by
  decide +kernel

theorem vicinity_table : ∀ d ∈ allDescriptors, ∀ w ∈ allWeather,
    (phenomenaInVicinity d w).num = vicinityCode d [w] := by
  decide +kernel

theorem vicinity_empty : ∀ d ∈ allDescriptors,
    (phenomenaInVicinity d .NOT_REPORTED).num = vicinityCode d [] := by
  decide +kernel

/-- C90: a weather phenomenon is summarised by the codes of its kinds of weather in the order written. -/
theorem C90_codes (q : Qualifier) (d : Descriptor) (ws : List Weather) :
    weatherFromWeatherPhenomena q d ws = phenomenonCodes q d ws := by
  unfold weatherFromWeatherPhenomena phenomenonCodes
  by_cases hq : q = .VICINITY
  · rw [if_pos hq, if_pos hq]
    cases ws with
    | nil => simp [vicinity_empty d (mem_descriptors d)]
    | cons w ws =>
      have := vicinity_table d (mem_descriptors d) w (mem_weather w)
      simp only [List.headD_cons, this]
      rfl
  · rw [if_neg hq, if_neg hq]
    by_cases hd : d = .THUNDERSTORM
    · rw [if_pos hd, if_pos hd]
      have e : ∀ w, (phenomenaFromWeatherGroup q .NONE w).num = codeFor q .NONE w := fun w =>
        code_table q (mem_qualifiers q) .NONE (by decide) w (mem_weather w) (by decide)
      simp only [e]
      rfl
    · rw [if_neg hd, if_neg hd]
      have e : ∀ w, (phenomenaFromWeatherGroup q d w).num = codeFor q d w := fun w =>
        code_table q (mem_qualifiers q) d (mem_descriptors d) w (mem_weather w) hd
      simp only [e]

example : weatherFromWeatherPhenomena .LIGHT .THUNDERSTORM [.RAIN, .HAIL] = [65, 33, 46] := by decide

/-- C90: the codes of ice pellets without showers (39, 40 and 41) are never given: ice pellets are
summarised as showers of ice pellets. -/
theorem C90_ice_pellets (q : Qualifier) (d : Descriptor) (ws : List Weather) :
    (∀ n ∈ weatherFromWeatherPhenomena q d ws, n ∉ [39, 40, 41]) ∧
    weatherFromWeatherPhenomena .MODERATE .NONE [.ICE_PELLETS] =
      weatherFromWeatherPhenomena .MODERATE .SHOWERS [.ICE_PELLETS] := by
  refine ⟨?_, by decide⟩
  have e : ∀ q ∈ allQualifiers, ∀ d ∈ allDescriptors, ∀ w ∈ allWeather,
      (phenomenaFromWeatherGroup q d w).num ∉ [39, 40, 41] := by decide +kernel
  have e2 : ∀ d ∈ allDescriptors, ∀ w ∈ allWeather, (phenomenaInVicinity d w).num ∉ [39, 40, 41] := by
    decide +kernel
  have e' := fun d w => e q (mem_qualifiers q) d (mem_descriptors d) w (mem_weather w)
  intro n hn
  unfold weatherFromWeatherPhenomena at hn
  split at hn
  · rw [List.mem_singleton] at hn
    subst hn
    exact e2 _ (mem_descriptors _) _ (mem_weather _)
  · split at hn
    · rcases List.mem_cons.mp hn with rfl | hn
      · decide
      · obtain ⟨w, -, rfl⟩ := List.mem_map.mp hn
        exact e' _ w
    · obtain ⟨w, -, rfl⟩ := List.mem_map.mp hn
      exact e' _ w

/-- C90: apart from ice pellets, the code tells the text it stands for. -/
theorem C90_inverse : ∀ x ∈ codeTable, ∀ y ∈ codeTable, x.2 = y.2 →
    x.1 = y.1 ∨ x.2 ∈ [56, 57, 58] := by decide +kernel

/-! ### C89: cover of the sky -/

/-- One more cover. -/
def addCover (s : Sky) : Cover → Sky
  | .clear => if s = .NOT_SPECIFIED then .CLEAR else s
  | .partly => .MOSTLY_CLEAR
  | .broken => if s ≠ .OVERCAST then .MOSTLY_CLOUDY else s
  | .overcast => .OVERCAST

theorem cover_amount (s : Sky) (a : Metaf.Amount) :
    cloudFromCloudGroupAmount s a = match coverOfAmount a with
      | none => s
      | some c => addCover s c := by
  cases a <;> cases s <;> rfl

theorem fromLast_cons {c : Cover} {cs : List Cover} (h : .partly ∈ cs) :
    fromLastPartly (c :: cs) = fromLastPartly cs := by
  unfold fromLastPartly
  rw [if_pos h, if_pos (List.mem_cons_of_mem _ h)]
  congr 2
  rw [List.reverse_cons]
  have : ∀ (l : List Cover) (d : Cover), .partly ∈ l →
      (l ++ [d]).takeWhile (· ≠ .partly) = l.takeWhile (· ≠ .partly) := by
    intro l d hl
    induction l with
    | nil => cases hl
    | cons x xs ih =>
      simp only [List.cons_append, List.takeWhile_cons]
      by_cases hx : x = .partly
      · simp [hx]
      · simp only [ne_eq, hx, not_false_eq_true, decide_true, if_true, List.cons.injEq, true_and]
        exact ih ((List.mem_cons.mp hl).resolve_left (Ne.symm hx))
  exact this _ _ (List.mem_reverse.mpr h)

theorem fromLast_partly {cs : List Cover} (h : .partly ∉ cs) :
    fromLastPartly (.partly :: cs) = .partly :: cs := by
  unfold fromLastPartly
  rw [if_pos (List.mem_cons_self ..), List.reverse_cons]
  congr 1
  have : ∀ (l : List Cover), .partly ∉ l →
      (l ++ [Cover.partly]).takeWhile (· ≠ .partly) = l := by
    intro l hl
    induction l with
    | nil => rfl
    | cons x xs ih =>
      simp only [List.mem_cons, not_or] at hl
      simp only [List.cons_append, List.takeWhile_cons, ne_eq, Ne.symm hl.1, not_false_eq_true,
        decide_true, if_true, List.cons.injEq, true_and]
      exact ih hl.2
  rw [this _ (by simpa using h), List.reverse_reverse]

/-- The cover after a list without a partly covered sky. -/
def joined (s : Sky) (cs : List Cover) : Sky :=
  if .overcast ∈ cs ∨ s = .OVERCAST then .OVERCAST
  else if .broken ∈ cs ∨ s = .MOSTLY_CLOUDY then .MOSTLY_CLOUDY
  else if s = .MOSTLY_CLEAR then .MOSTLY_CLEAR
  else if .clear ∈ cs ∨ s = .CLEAR then .CLEAR
  else .NOT_SPECIFIED

theorem joined_fold (cs : List Cover) (h : .partly ∉ cs) (s : Sky) : cs.foldl addCover s = joined s cs := by
  induction cs generalizing s with
  | nil => cases s <;> rfl
  | cons c cs ih =>
    simp only [List.mem_cons, not_or] at h
    rw [List.foldl_cons, ih h.2]
    cases c with
    | partly => exact absurd rfl h.1
    | clear => cases s <;> simp [joined, addCover]
    | broken => cases s <;> simp [joined, addCover]
    | overcast => cases s <;> simp [joined, addCover]

/-- C89: the cover of the sky after any list of covers is the greatest of those from the last partly
covered sky on. -/
theorem cover_fold (cs : List Cover) :
    cs.foldl addCover .NOT_SPECIFIED = greatest (fromLastPartly cs) := by
  suffices h : ∀ s, (.partly ∉ cs ∧ cs.foldl addCover s = joined s cs) ∨
      (.partly ∈ cs ∧ cs.foldl addCover s = greatest (fromLastPartly cs)) by
    rcases h .NOT_SPECIFIED with ⟨h1, h2⟩ | ⟨h1, h2⟩
    · rw [h2]
      simp only [joined, greatest, fromLastPartly, if_neg h1, reduceCtorEq, or_false, if_false]
    · exact h2
  induction cs with
  | nil => intro s; exact Or.inl ⟨by simp, joined_fold [] (by simp) s⟩
  | cons c cs ih =>
    intro s
    rw [List.foldl_cons]
    rcases ih (addCover s c) with ⟨h1, h2⟩ | ⟨h1, h2⟩
    · by_cases hc : c = .partly
      · subst hc
        refine Or.inr ⟨List.mem_cons_self .., ?_⟩
        rw [h2, fromLast_partly h1]
        simp [joined, addCover, greatest]
      · have h3 : .partly ∉ c :: cs := by
          simp only [List.mem_cons, not_or]; exact ⟨Ne.symm hc, h1⟩
        exact Or.inl ⟨h3, joined_fold (c :: cs) h3 s⟩
    · exact Or.inr ⟨List.mem_cons_of_mem _ h1, by rw [h2, fromLast_cons h1]⟩

/-- No group of a partly covered sky follows one of a broken or overcast sky. -/
def NotLess (cs : List Cover) : Prop :=
  cs.Pairwise fun a b => b = .partly → a ≠ .broken ∧ a ≠ .overcast

/-- C89: the cover is the greatest one said if no lesser amount follows a greater one. -/
theorem greatest_ordered (cs : List Cover) (h : NotLess cs) : greatest (fromLastPartly cs) = greatest cs := by
  induction cs with
  | nil => rfl
  | cons c cs ih =>
    have h' := List.pairwise_cons.mp h
    by_cases hp : .partly ∈ cs
    · rw [fromLast_cons hp, ih h'.2]
      have hc := h'.1 _ hp rfl
      cases c with
      | broken => exact absurd rfl hc.1
      | overcast => exact absurd rfl hc.2
      | partly => simp [greatest, hp]
      | clear => simp [greatest, hp]
    · by_cases hc : c = .partly
      · subst hc; rw [fromLast_partly hp]
      · unfold fromLastPartly
        rw [if_neg (by simp only [List.mem_cons, not_or]; exact ⟨Ne.symm hc, hp⟩)]

end Metaf.Props
