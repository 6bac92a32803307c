import Verif.Proofs.Weather
import Verif.Spec.Weather

/-!
C40 and C41: weather phenomena.
-/

namespace Metaf.Props

open Metaf.Spec WeatherPhenomena

set_option linter.unusedSectionVars false

/-! ### C40: packing -/

/-- C40: components packed into a phenomenon are returned unchanged. -/
theorem C40_lossless (q : Qualifier) (d : Descriptor) (ws : List Weather) (e : WeatherEvent)
    (tm : Option MetafTime) (h : ws.length ≤ 3) :
    let p : WeatherPhenomena := { data := pack q d ws e, tm := tm }
    p.qualifier = q ∧ p.descriptor = d ∧ p.weather = ws ∧ p.event = e ∧ p.tm = tm := by
  refine ⟨pack_qualifier .., pack_descriptor .., ?_, pack_event .., rfl⟩
  rw [pack_weather, List.take_of_length_le h]

/-- C40: the same for the constructors from single codes. -/
theorem C40_constructors (q : Qualifier) (d : Descriptor) (w w' : Weather) :
    ((of0 d q).qualifier = q ∧ (of0 d q).descriptor = d ∧ (of0 d q).weather = [] ∧
        (of0 d q).event = .NONE) ∧
      ((of1 w d q).qualifier = q ∧ (of1 w d q).descriptor = d ∧ (of1 w d q).weather = [w] ∧
        (of1 w d q).event = .NONE) ∧
      ((of2 w w' d q).qualifier = q ∧ (of2 w w' d q).descriptor = d ∧
        (of2 w w' d q).weather = [w, w'] ∧ (of2 w w' d q).event = .NONE) :=
  ⟨packCodes_fields q d 0 .NOT_REPORTED .NOT_REPORTED .NOT_REPORTED .NONE (by decide) none,
    packCodes_fields q d 1 w .NOT_REPORTED .NOT_REPORTED .NONE (by decide) none,
    packCodes_fields q d 2 w w' .NOT_REPORTED .NONE (by decide) none⟩

/-- C40: more than three codes are cut; the packed number fits in 26 of 32 bits. -/
theorem C40_cut (q : Qualifier) (d : Descriptor) (ws : List Weather) (e : WeatherEvent)
    (tm : Option MetafTime) :
    ({ data := pack q d ws e, tm := tm } : WeatherPhenomena).weather = ws.take 3 ∧
      pack q d ws e < 2 ^ 26 := by
  refine ⟨pack_weather .., ?_⟩
  obtain ⟨w1, w2, w3, h, -⟩ := pack_eq q d ws e
  rw [h]
  have shl : ∀ x b i : Nat, x < 2 ^ b → b + i ≤ 26 → x <<< i < 2 ^ 26 := by
    intro x b i hx hb
    rw [Nat.shiftLeft_eq]
    calc x * 2 ^ i < 2 ^ b * 2 ^ i := Nat.mul_lt_mul_of_pos_right hx (Nat.two_pow_pos i)
      _ = 2 ^ (b + i) := (Nat.pow_add 2 b i).symm
      _ ≤ 2 ^ 26 := Nat.pow_le_pow_right (by decide) hb
  have hn : (if ws.length > 3 then 3 else ws.length) < 2 ^ 2 := by split <;> omega
  simp only [packCodes]
  refine Nat.or_lt_two_pow (Nat.or_lt_two_pow (Nat.or_lt_two_pow (Nat.or_lt_two_pow
    (Nat.or_lt_two_pow (Nat.or_lt_two_pow (Nat.or_lt_two_pow (by decide) ?_) ?_) ?_) ?_) ?_) ?_) ?_
  · exact shl _ 3 0 q.code_lt (by decide)
  · exact shl _ 4 3 d.code_lt (by decide)
  · exact shl _ 2 22 hn (by decide)
  · exact shl _ 5 7 w1.code_lt (by decide)
  · exact shl _ 5 12 w2.code_lt (by decide)
  · exact shl _ 5 17 w3.code_lt (by decide)
  · exact shl _ 2 24 e.code_lt (by decide)

example : ({ data := pack .HEAVY .THUNDERSTORM [.RAIN, .HAIL, .SNOW] .ENDING } :
    WeatherPhenomena).weather = [.RAIN, .HAIL, .SNOW] := by decide +kernel

/-! ### Strings with a fixed meaning -/

/-- An `if` chain over string constants. -/
def lookup : List (Str × WeatherPhenomena) → Str → Option WeatherPhenomena
  | [], _ => none
  | (k, v) :: t, s => if s = k then some v else lookup t s

theorem lookup_mem {t : List (Str × WeatherPhenomena)} {s : Str} {p : WeatherPhenomena}
    (h : lookup t s = some p) : (s, p) ∈ t := by
  induction t with
  | nil => cases h
  | cons x t ih =>
    obtain ⟨k, v⟩ := x
    simp only [lookup] at h
    by_cases hk : s = k
    · rw [if_pos hk] at h
      obtain rfl := Option.some.inj h
      subst hk
      exact List.mem_cons_self
    · rw [if_neg hk] at h
      exact List.mem_cons_of_mem _ (ih h)

def fixedTable : List (Str × WeatherPhenomena) :=
  [(c!"MIFG", of1 .FOG .SHALLOW), (c!"PRFG", of1 .FOG .PARTIAL), (c!"BCFG", of1 .FOG .PATCHES),
   (c!"DRDU", of1 .DUST .LOW_DRIFTING), (c!"DRSA", of1 .SAND .LOW_DRIFTING),
   (c!"DRSN", of1 .SNOW .LOW_DRIFTING), (c!"BLDU", of1 .DUST .BLOWING), (c!"BLSA", of1 .SAND .BLOWING),
   (c!"BLSN", of1 .SNOW .BLOWING), (c!"BLPY", of1 .SPRAY .BLOWING), (c!"TS", of0 .THUNDERSTORM),
   (c!"FZFG", of1 .FOG .FREEZING), (c!"IC", of1 .ICE_CRYSTALS), (c!"BR", of1 .MIST),
   (c!"FG", of1 .FOG), (c!"FU", of1 .SMOKE), (c!"VA", of1 .VOLCANIC_ASH), (c!"DU", of1 .DUST),
   (c!"SA", of1 .SAND), (c!"HZ", of1 .HAZE), (c!"PO", of1 .DUST_WHIRLS), (c!"SQ", of1 .SQUALLS),
   (c!"FC", of1 .FUNNEL_CLOUD), (c!"DS", of1 .DUSTSTORM), (c!"SS", of1 .SANDSTORM),
   (c!"DSSS", of2 .DUSTSTORM .SANDSTORM), (c!"SSDS", of2 .SANDSTORM .DUSTSTORM)]

def qualifiedTable : List (Str × WeatherPhenomena) :=
  [(c!"VCTS", of0 .THUNDERSTORM .VICINITY), (c!"VCFG", of1 .FOG .NONE .VICINITY),
   (c!"VCSH", of0 .SHOWERS .VICINITY), (c!"VCPO", of1 .DUST_WHIRLS .NONE .VICINITY),
   (c!"VCVA", of1 .VOLCANIC_ASH .NONE .VICINITY), (c!"VCFC", of1 .FUNNEL_CLOUD .NONE .VICINITY),
   (c!"VCBLDU", of1 .DUST .BLOWING .VICINITY), (c!"VCBLSA", of1 .SAND .BLOWING .VICINITY),
   (c!"VCBLSN", of1 .SNOW .BLOWING .VICINITY), (c!"VCDS", of1 .DUSTSTORM .NONE .VICINITY),
   (c!"VCSS", of1 .SANDSTORM .NONE .VICINITY), (c!"+FC", of1 .FUNNEL_CLOUD .NONE .HEAVY),
   (c!"+DS", of1 .DUSTSTORM .NONE .HEAVY), (c!"+SS", of1 .SANDSTORM .NONE .HEAVY),
   (c!"+DSSS", of2 .DUSTSTORM .SANDSTORM .NONE .HEAVY),
   (c!"+SSDS", of2 .SANDSTORM .DUSTSTORM .NONE .HEAVY), (c!"RETS", of0 .THUNDERSTORM .RECENT)]

theorem fixedString_eq (s : Str) : fixedString s = lookup fixedTable s := by
  simp only [fixedString, fixedTable, lookup]

theorem fixedQualifiedString_eq (s : Str) : fixedQualifiedString s = lookup qualifiedTable s := by
  simp only [fixedQualifiedString, qualifiedTable, lookup]

/-- A phenomenon with the given components. -/
def made (q : Qualifier) (d : Descriptor) (ws : List Weather) : WeatherPhenomena :=
  { data := pack q d ws }

/-- Decidable form of `PlainWeather`. -/
def plainB (d : Descriptor) (ws : List Weather) : Bool :=
  match ws with
  | [] => d == .THUNDERSTORM
  | [w] =>
    (w == .FOG && [Descriptor.NONE, .SHALLOW, .PARTIAL, .PATCHES, .FREEZING].contains d) ||
    (d == .LOW_DRIFTING && [Weather.DUST, .SAND, .SNOW].contains w) ||
    (d == .BLOWING && [Weather.DUST, .SAND, .SNOW, .SPRAY].contains w) ||
    (d == .NONE && [Weather.ICE_CRYSTALS, .MIST, .SMOKE, .VOLCANIC_ASH, .DUST, .SAND, .HAZE,
      .DUST_WHIRLS, .SQUALLS, .FUNNEL_CLOUD, .DUSTSTORM, .SANDSTORM].contains w)
  | [v, w] => d == .NONE && ((v == .DUSTSTORM && w == .SANDSTORM) || (v == .SANDSTORM && w == .DUSTSTORM))
  | _ => false

theorem plain_of {d : Descriptor} {ws : List Weather} (h : plainB d ws = true) : PlainWeather d ws := by
  unfold plainB at h
  split at h
  · obtain rfl := eq_of_beq h; exact .thunderstorm
  · rename_i w
    simp only [Bool.or_eq_true, Bool.and_eq_true, beq_iff_eq, List.contains_iff_mem] at h
    rcases h with ((⟨rfl, h⟩ | ⟨rfl, h⟩) | ⟨rfl, h⟩) | ⟨rfl, h⟩
    · exact .fog d h
    · exact .drifting w h
    · exact .blowing w h
    · exact .single w h
  · simp only [Bool.or_eq_true, Bool.and_eq_true, beq_iff_eq] at h
    obtain ⟨rfl, ⟨rfl, rfl⟩ | ⟨rfl, rfl⟩⟩ := h
    · exact .storms₁
    · exact .storms₂
  · cases h

/-- Decidable form of `QualifiedWeather`. -/
def qualifiedB (q : Qualifier) (d : Descriptor) (ws : List Weather) : Bool :=
  match ws with
  | [] => (q == .VICINITY && (d == .SHOWERS || d == .THUNDERSTORM)) || (q == .RECENT && d == .THUNDERSTORM)
  | [w] =>
    (q == .VICINITY && d == .NONE && [Weather.FOG, .DUST_WHIRLS, .VOLCANIC_ASH, .FUNNEL_CLOUD,
      .DUSTSTORM, .SANDSTORM].contains w) ||
    (q == .VICINITY && d == .BLOWING && [Weather.DUST, .SAND, .SNOW].contains w) ||
    (q == .HEAVY && d == .NONE && [Weather.FUNNEL_CLOUD, .DUSTSTORM, .SANDSTORM].contains w)
  | [v, w] => q == .HEAVY && d == .NONE &&
      ((v == .DUSTSTORM && w == .SANDSTORM) || (v == .SANDSTORM && w == .DUSTSTORM))
  | _ => false

theorem qualified_of {q : Qualifier} {d : Descriptor} {ws : List Weather} (h : qualifiedB q d ws = true) :
    QualifiedWeather q d ws := by
  unfold qualifiedB at h
  split at h
  · simp only [Bool.or_eq_true, Bool.and_eq_true, beq_iff_eq] at h
    rcases h with ⟨rfl, rfl | rfl⟩ | ⟨rfl, rfl⟩
    · exact .showers
    · exact .thunderstorm
    · exact .recent
  · rename_i w
    simp only [Bool.or_eq_true, Bool.and_eq_true, beq_iff_eq, List.contains_iff_mem] at h
    rcases h with (⟨⟨rfl, rfl⟩, h⟩ | ⟨⟨rfl, rfl⟩, h⟩) | ⟨⟨rfl, rfl⟩, h⟩
    · exact .vicinity w h
    · exact .blowing w h
    · exact .heavy w h
  · simp only [Bool.or_eq_true, Bool.and_eq_true, beq_iff_eq] at h
    obtain ⟨⟨rfl, rfl⟩, ⟨rfl, rfl⟩ | ⟨rfl, rfl⟩⟩ := h
    · exact .heavy₁
    · exact .heavy₂
  · cases h

theorem fixed_sound : ∀ x ∈ fixedTable, x.1 = weatherWritten .NONE x.2.descriptor x.2.weather ∧
    x.2 = made .NONE x.2.descriptor x.2.weather ∧ plainB x.2.descriptor x.2.weather = true := by
  decide +kernel

theorem qualified_sound : ∀ x ∈ qualifiedTable,
    x.1 = weatherWritten x.2.qualifier x.2.descriptor x.2.weather ∧
    x.2 = made x.2.qualifier x.2.descriptor x.2.weather ∧
    qualifiedB x.2.qualifier x.2.descriptor x.2.weather = true := by
  decide +kernel

/-- Strings with a fixed meaning are not precipitation. -/
theorem fixed_not_precipitation : ∀ x ∈ fixedTable,
    precipitation x.1 true = none ∧ precipitation x.1 false = none := by
  decide +kernel

theorem qualified_not_precipitation : ∀ x ∈ qualifiedTable, precipitation x.1 true = none := by
  decide +kernel

theorem fixed_complete {d : Descriptor} {ws : List Weather} (h : PlainWeather d ws) :
    fixedString (weatherWritten .NONE d ws) = some (made .NONE d ws) := by
  cases h with
  | fog d h =>
    revert d; decide +kernel
  | drifting w h => revert w; decide +kernel
  | blowing w h => revert w; decide +kernel
  | thunderstorm => decide +kernel
  | single w h => revert w; decide +kernel
  | storms₁ => decide +kernel
  | storms₂ => decide +kernel

theorem qualified_complete {q : Qualifier} {d : Descriptor} {ws : List Weather}
    (h : QualifiedWeather q d ws) :
    fixedString (weatherWritten q d ws) = none ∧
      fixedQualifiedString (weatherWritten q d ws) = some (made q d ws) := by
  cases h with
  | vicinity w h => revert w; decide +kernel
  | blowing w h => revert w; decide +kernel
  | showers => decide +kernel
  | thunderstorm => decide +kernel
  | heavy w h => revert w; decide +kernel
  | heavy₁ => decide +kernel
  | heavy₂ => decide +kernel
  | recent => decide +kernel

/-! ### Precipitation -/

theorem precipCode_text {s : Str} {w : Weather} (h : precipCode s = some w) :
    s = weatherText w ∧ isPrecipitation w = true := by
  unfold precipCode at h
  ite_cases h
  all_goals first
    | (cases h; done)
    | (obtain rfl := Option.some.inj h; subst_vars; exact ⟨rfl, rfl⟩)

theorem precipCode_of {w : Weather} (h : isPrecipitation w = true) :
    precipCode (weatherText w) = some w := by
  revert h; cases w <;> decide +kernel

theorem weatherText_length (w : Weather) : (weatherText w).length = 2 := by cases w <;> rfl

theorem precipLoop_sound : ∀ (n : Nat) (s : Str) (ws : List Weather) (rest : Str) (out : List Weather),
    precipLoop n s ws = some (rest, out) →
    ∃ new, out = ws ++ new ∧ s = (new.map weatherText).flatten ++ rest ∧ new.length ≤ n ∧
      (∀ w ∈ new, isPrecipitation w = true) ∧ (ws.Nodup → out.Nodup) ∧
      (s ≠ [] → 0 < n → new ≠ []) := by
  intro n
  induction n with
  | zero =>
    intro s ws rest out h
    simp only [precipLoop, Option.some.injEq, Prod.mk.injEq] at h
    obtain ⟨rfl, rfl⟩ := h
    exact ⟨[], by simp, by simp, by simp, by simp, id, by simp⟩
  | succ n ih =>
    intro s ws rest out h
    rw [precipLoop] at h
    by_cases he : s.isEmpty = true
    · rw [if_pos he] at h
      simp only [Option.some.injEq, Prod.mk.injEq] at h
      obtain ⟨rfl, rfl⟩ := h
      exact ⟨[], by simp, by simp, by simp, by simp, id, by simp_all⟩
    · rw [if_neg he] at h
      cases hc : precipCode (s.take 2) with
      | none => rw [hc] at h; cases h
      | some w =>
        rw [hc] at h
        simp only at h
        obtain ⟨ht, hp⟩ := precipCode_text hc
        by_cases hm : ws.contains w = true
        · rw [if_pos hm] at h; cases h
        · rw [if_neg hm] at h
          obtain ⟨new, h1, h2, h3, h4, h5, -⟩ := ih _ _ _ _ h
          refine ⟨w :: new, by simp [h1], ?_, by simp; omega, ?_, ?_, by simp⟩
          · simp only [List.map_cons, List.flatten_cons, List.append_assoc]
            rw [← h2, ← ht, List.take_append_drop]
          · intro x hx
            rcases List.mem_cons.mp hx with rfl | hx
            · exact hp
            · exact h4 x hx
          · intro hn
            apply h5
            rw [List.nodup_append]
            refine ⟨hn, by simp, ?_⟩
            intro a ha b hb
            simp only [List.mem_singleton] at hb
            subst hb
            rintro rfl
            apply hm
            simpa using ha

theorem precipLoop_complete : ∀ (n : Nat) (new ws : List Weather), new.length ≤ n →
    (∀ w ∈ new, isPrecipitation w = true) → (ws ++ new).Nodup →
    precipLoop n (new.map weatherText).flatten ws = some ([], ws ++ new) := by
  intro n
  induction n with
  | zero =>
    intro new ws h _ _
    obtain rfl := List.length_eq_zero_iff.mp (by omega : new.length = 0)
    simp [precipLoop]
  | succ n ih =>
    intro new ws h hp hn
    cases new with
    | nil => simp [precipLoop]
    | cons w new =>
      have hl := weatherText_length w
      have hne : ¬ ((weatherText w ++ (new.map weatherText).flatten).isEmpty = true) := by
        intro he
        have := List.length_eq_zero_iff.mpr (List.isEmpty_iff.mp he)
        rw [List.length_append] at this
        omega
      rw [List.map_cons, List.flatten_cons, precipLoop, if_neg hne, List.take_append_of_le_length (by omega),
        List.take_of_length_le (by omega), precipCode_of (hp w (by simp))]
      simp only
      rw [if_neg, List.drop_append_of_le_length (by omega), List.drop_of_length_le (by omega)]
      · rw [List.nil_append, ih new (ws ++ [w]) (by simp at h; omega) (fun x hx => hp x (by simp [hx]))
          (by simpa using hn)]
        simp
      · rw [List.nodup_append] at hn
        intro hc
        exact hn.2.2 w (by simpa using hc) w (by simp) rfl

/-- The texts of precipitation, one by one. -/
theorem flatten_length (ws : List Weather) : ((ws.map weatherText).flatten).length = 2 * ws.length := by
  induction ws with
  | nil => rfl
  | cons w ws ih => simp [ih, weatherText_length]; omega

theorem any_sh {ws : List Weather} : ws.any isDescriptorShAllowed = true ↔
    ∃ w ∈ ws, w ∈ [Weather.RAIN, .SNOW, .ICE_PELLETS, .HAIL, .SMALL_HAIL, .UNDETERMINED] := by
  rw [List.any_eq_true]
  refine exists_congr fun w => and_congr_right fun _ => ?_
  cases w <;> decide

theorem any_fz {ws : List Weather} : ws.any isDescriptorFzAllowed = true ↔
    ∃ w ∈ ws, w ∈ [Weather.DRIZZLE, .RAIN, .UNDETERMINED] := by
  rw [List.any_eq_true]
  refine exists_congr fun w => and_congr_right fun _ => ?_
  cases w <;> decide

theorem precipQualifier_sound (s : Str) (en : Bool) (h : ¬ s.length < 2) :
    s = qualifierText (precipQualifier s en).1 ++ (precipQualifier s en).2 ∧
      (en = false → (precipQualifier s en).1 = .NONE) ∧
      (en = true → (precipQualifier s en).1 ∈ [Qualifier.LIGHT, .MODERATE, .HEAVY, .RECENT]) := by
  obtain ⟨a, b, t, rfl⟩ : ∃ a b t, s = a :: b :: t := by
    match s, h with
    | [], h => simp at h
    | [_], h => simp at h
    | a :: b :: t, _ => exact ⟨a, b, t, rfl⟩
  unfold precipQualifier
  cases en
  · simp [qualifierText]
  · rw [if_pos rfl]
    simp only [ch, List.getD_cons_zero, List.getD_cons_succ]
    by_cases h1 : (a == '+') = true
    · rw [if_pos h1]
      obtain rfl := eq_of_beq h1
      simp [qualifierText]
    · rw [if_neg h1]
      by_cases h2 : (a == '-') = true
      · rw [if_pos h2]
        obtain rfl := eq_of_beq h2
        simp [qualifierText]
      · rw [if_neg h2]
        by_cases h3 : (a == 'R' && b == 'E') = true
        · rw [if_pos h3]
          simp only [Bool.and_eq_true, beq_iff_eq] at h3
          obtain ⟨rfl, rfl⟩ := h3
          simp [qualifierText]
        · rw [if_neg h3]
          simp [qualifierText]

theorem precipDescriptor_sound (s : Str) :
    s = descriptorText (precipDescriptor s).1 ++ (precipDescriptor s).2 ∧
      (precipDescriptor s).1 ∈ [Descriptor.NONE, .SHOWERS, .THUNDERSTORM, .FREEZING] := by
  unfold precipDescriptor
  by_cases h1 : s.take 2 = c!"SH"
  · rw [if_pos h1]
    refine ⟨?_, by simp⟩
    simp only [descriptorText, ← h1]
    rw [List.take_append_drop]
  · rw [if_neg h1]
    by_cases h2 : s.take 2 = c!"TS"
    · rw [if_pos h2]
      refine ⟨?_, by simp⟩
      simp only [descriptorText, ← h2]
      rw [List.take_append_drop]
    · rw [if_neg h2]
      by_cases h3 : s.take 2 = c!"FZ"
      · rw [if_pos h3]
        refine ⟨?_, by simp⟩
        simp only [descriptorText, ← h3]
        rw [List.take_append_drop]
      · rw [if_neg h3]
        exact ⟨by simp [descriptorText], by simp⟩

theorem precipitation_sound {s : Str} {en : Bool} {p : WeatherPhenomena}
    (h : precipitation s en = some p) :
    ∃ q d ws, AllowedWeather en q d ws ∧ s = weatherWritten q d ws ∧ p = made q d ws := by
  unfold precipitation at h
  by_cases h0 : s.length < 2
  · rw [if_pos h0] at h; cases h
  rw [if_neg h0] at h
  obtain ⟨q1, q2, q3⟩ := precipQualifier_sound s en h0
  generalize precipQualifier s en = x at *
  obtain ⟨q, s1⟩ := x
  simp only at h q1 q2 q3
  by_cases h1 : s1.length < 2
  · rw [if_pos h1] at h; cases h
  rw [if_neg h1] at h
  obtain ⟨d1, d2⟩ := precipDescriptor_sound s1
  generalize precipDescriptor s1 = x at *
  obtain ⟨d, s2⟩ := x
  simp only at h d1 d2
  by_cases h2 : (s2.length < 2 || s2.length % 2 != 0) = true
  · rw [if_pos h2] at h; cases h
  rw [if_neg h2] at h
  cases hl : precipLoop 3 s2 [] with
  | none => rw [hl] at h; cases h
  | some x =>
    obtain ⟨rest, ws⟩ := x
    rw [hl] at h
    simp only at h
    obtain ⟨new, e1, e2, e3, e4, e5, e6⟩ := precipLoop_sound _ _ _ _ _ hl
    by_cases h3 : (!rest.isEmpty) = true
    · rw [if_pos h3] at h; cases h
    rw [if_neg h3] at h
    by_cases h4 : (!(ws.any isDescriptorShAllowed) && d == .SHOWERS) = true
    · rw [if_pos h4] at h; cases h
    rw [if_neg h4] at h
    by_cases h5 : (!(ws.any isDescriptorFzAllowed) && d == .FREEZING) = true
    · rw [if_pos h5] at h; cases h
    rw [if_neg h5] at h
    obtain rfl : rest = [] := by simpa using h3
    have e1 : ws = new := by simpa using e1
    subst e1
    have hpw : PrecipitationWeather d ws := by
      refine ⟨e4, e6 ?_ (by decide), e3, e5 List.nodup_nil, d2, ?_, ?_⟩
      · intro hnil
        subst hnil
        simp at h2
      · rintro rfl
        apply any_sh.mp
        simpa using h4
      · rintro rfl
        apply any_fz.mp
        simpa using h5
    refine ⟨q, d, ws, ?_, ?_, (Option.some.inj h).symm⟩
    · cases en
      · rw [q2 rfl]
        exact .precipitation rfl hpw
      · exact .intensity rfl (q3 rfl) hpw
    · rw [weatherWritten, List.append_assoc]
      rw [List.append_nil] at e2
      rw [← e2, ← d1, ← q1]

theorem precipitation_complete {en : Bool} {q : Qualifier} {d : Descriptor} {ws : List Weather}
    (hq : en = false ∧ q = .NONE ∨ en = true ∧ q ∈ [Qualifier.LIGHT, .MODERATE, .HEAVY, .RECENT])
    (h : PrecipitationWeather d ws) :
    precipitation (weatherWritten q d ws) en = some (made q d ws) := by
  obtain ⟨w, wt, rfl⟩ : ∃ w wt, ws = w :: wt := by
    match ws, h.some with
    | [], h => exact absurd rfl h
    | w :: wt, _ => exact ⟨w, wt, rfl⟩
  have hw := h.kind w (by simp)
  have hlen := flatten_length (w :: wt)
  have hl3 : ∃ t, ((w :: wt).map weatherText).flatten = weatherText w ++ t := ⟨_, by simp; rfl⟩
  have hloop := precipLoop_complete 3 (w :: wt) [] h.atMost h.kind (by simpa using h.different)
  have hsh : (!((w :: wt).any isDescriptorShAllowed) && d == .SHOWERS) = false := by
    by_cases e : d = .SHOWERS
    · rw [any_sh.mpr (h.showers e)]; rfl
    · simp [e]
  have hfz : (!((w :: wt).any isDescriptorFzAllowed) && d == .FREEZING) = false := by
    by_cases e : d = .FREEZING
    · rw [any_fz.mpr (h.freezing e)]; rfl
    · simp [e]
  have hne : (w :: wt).length ≠ 0 := by simp
  generalize hT : ((w :: wt).map weatherText).flatten = T at *
  generalize w :: wt = ws at *
  -- descriptor
  have hd : precipDescriptor (descriptorText d ++ T) = (d, T) := by
    obtain ⟨t, rfl⟩ := hl3
    have := h.descriptor
    simp only [List.mem_cons, List.not_mem_nil, or_false] at this
    rcases this with rfl | rfl | rfl | rfl
    · revert hw
      cases w <;> simp [isPrecipitation, weatherText, descriptorText, precipDescriptor]
    all_goals simp [descriptorText, precipDescriptor]
  have hdl : 2 ≤ (descriptorText d ++ T).length := by
    rw [List.length_append]; omega
  -- qualifier
  have hqq : precipQualifier (qualifierText q ++ (descriptorText d ++ T)) en = (q, descriptorText d ++ T) := by
    rcases hq with ⟨rfl, rfl⟩ | ⟨rfl, hq⟩
    · rfl
    · simp only [List.mem_cons, List.not_mem_nil, or_false] at hq
      rcases hq with rfl | rfl | rfl | rfl
      · rfl
      · obtain ⟨t, rfl⟩ := hl3
        have := h.descriptor
        simp only [List.mem_cons, List.not_mem_nil, or_false] at this
        rcases this with rfl | rfl | rfl | rfl
        · revert hw
          cases w <;> simp [isPrecipitation, weatherText, descriptorText, precipQualifier, ch, qualifierText]
        all_goals rfl
      · rfl
      · rfl
  unfold precipitation
  rw [weatherWritten, List.append_assoc, hT, if_neg (by rw [List.length_append]; omega), hqq]
  simp only
  rw [if_neg (by omega), hd]
  simp only
  rw [if_neg (by simp; omega), hloop]
  simp only [List.nil_append]
  rw [if_neg (by simp), if_neg (by simp [hsh]), if_neg (by simp [hfz])]
  rfl

/-! ### C41 -/

/-- C41: the strings accepted are exactly the ways allowed weather is written, and each decodes into
the components written. -/
theorem C41_weather (s : Str) (en : Bool) (p : WeatherPhenomena) :
    fromString s en = some p ↔
      ∃ q d ws, AllowedWeather en q d ws ∧ s = weatherWritten q d ws ∧ p = made q d ws := by
  constructor
  · intro h
    unfold fromString at h
    cases hf : fixedString s with
    | some p' =>
      rw [hf] at h
      obtain rfl := Option.some.inj h
      rw [fixedString_eq] at hf
      obtain ⟨h1, h2, h3⟩ := fixed_sound _ (lookup_mem hf)
      exact ⟨_, _, _, .plain (plain_of h3), h1, h2⟩
    | none =>
      rw [hf] at h
      simp only at h
      cases en with
      | false => exact precipitation_sound h
      | true =>
        simp only [if_true] at h
        cases hq : fixedQualifiedString s with
        | some p' =>
          rw [hq] at h
          obtain rfl := Option.some.inj h
          rw [fixedQualifiedString_eq] at hq
          obtain ⟨h1, h2, h3⟩ := qualified_sound _ (lookup_mem hq)
          exact ⟨_, _, _, .qualified rfl (qualified_of h3), h1, h2⟩
        | none =>
          rw [hq] at h
          exact precipitation_sound h
  · rintro ⟨q, d, ws, ha, rfl, rfl⟩
    have notFixed : ∀ {t}, (∃ p, precipitation t en = some p) → fixedString t = none := by
      rintro t ⟨p, hp⟩
      cases hf : fixedString t with
      | none => rfl
      | some p' =>
        rw [fixedString_eq] at hf
        have := fixed_not_precipitation _ (lookup_mem hf)
        cases en
        · rw [this.2] at hp; cases hp
        · rw [this.1] at hp; cases hp
    have notQualified : ∀ {t}, en = true → (∃ p, precipitation t en = some p) →
        fixedQualifiedString t = none := by
      rintro t rfl ⟨p, hp⟩
      cases hf : fixedQualifiedString t with
      | none => rfl
      | some p' =>
        rw [fixedQualifiedString_eq] at hf
        rw [qualified_not_precipitation _ (lookup_mem hf)] at hp
        cases hp
    unfold fromString
    cases ha with
    | plain h => rw [fixed_complete h]
    | qualified e h =>
      subst e
      obtain ⟨h1, h2⟩ := qualified_complete h
      rw [h1]
      simp only [if_true]
      rw [h2]
    | precipitation e h =>
      subst e
      have hp := precipitation_complete (en := false) (.inl ⟨rfl, rfl⟩) h
      rw [notFixed ⟨_, hp⟩]
      exact hp
    | intensity e hq h =>
      subst e
      have hp := precipitation_complete (en := true) (.inr ⟨rfl, hq⟩) h
      rw [notFixed ⟨_, hp⟩]
      simp only [if_true]
      rw [notQualified rfl ⟨_, hp⟩]
      exact hp

theorem allowed_length {en : Bool} {q : Qualifier} {d : Descriptor} {ws : List Weather}
    (h : AllowedWeather en q d ws) : ws.length ≤ 3 ∧ ws.Nodup ∧
      (q = .NONE → d = .NONE → ws ≠ []) ∧ (d = .FREEZING → ∃ w ∈ ws, Freezes w) := by
  have fz : ∀ {d ws}, PrecipitationWeather d ws → d = .FREEZING → ∃ w ∈ ws, Freezes w := by
    intro d ws h hd
    obtain ⟨w, hw, hf⟩ := h.freezing hd
    refine ⟨w, hw, ?_⟩
    simp only [List.mem_cons, List.not_mem_nil, or_false] at hf
    rcases hf with rfl | rfl | rfl <;> simp [Freezes]
  cases h with
  | plain h =>
    cases h <;> refine ⟨by simp, by simp, by simp, ?_⟩ <;> simp [Freezes]
  | qualified e h =>
    cases h <;> refine ⟨by simp, by simp, by simp, ?_⟩ <;> simp [Freezes]
  | precipitation e h => exact ⟨h.atMost, h.different, fun _ _ => h.some, fz h⟩
  | intensity e hq h => exact ⟨h.atMost, h.different, fun _ _ => h.some, fz h⟩

/-- C41: accepted weather has at most three codes, all different; it renders back to the text; it has
no event and no time. -/
theorem C41_accepted (s : Str) (en : Bool) (p : WeatherPhenomena) (h : fromString s en = some p) :
    p.weather.length ≤ 3 ∧ p.weather.Nodup ∧ weatherWritten p.qualifier p.descriptor p.weather = s ∧
      AllowedWeather en p.qualifier p.descriptor p.weather ∧ p.event = .NONE ∧ p.tm = none := by
  obtain ⟨q, d, ws, ha, rfl, rfl⟩ := (C41_weather s en p).mp h
  obtain ⟨h1, h2, -, -⟩ := allowed_length ha
  obtain ⟨e1, e2, e3, e4, e5⟩ := C40_lossless q d ws .NONE none h1
  change (made q d ws).qualifier = q at e1
  change (made q d ws).descriptor = d at e2
  change (made q d ws).weather = ws at e3
  change (made q d ws).event = .NONE at e4
  rw [e1, e2, e3]
  exact ⟨h1, h2, rfl, ha, e4, rfl⟩

/-- C41: the validity check of accepted weather succeeds and does not read beyond the codes. -/
theorem C41_valid (s : Str) (en : Bool) (p : WeatherPhenomena) (h : fromString s en = some p) :
    p.isValid = .ok true := by
  have hf := fzOk_fromString h
  obtain ⟨q, d, ws, ha, rfl, rfl⟩ := (C41_weather s en p).mp h
  obtain ⟨h1, h2, h3, h4⟩ := allowed_length ha
  obtain ⟨e1, e2, e3, e4, e5⟩ := C40_lossless q d ws .NONE none h1
  change (made q d ws).qualifier = q at e1
  change (made q d ws).descriptor = d at e2
  change (made q d ws).weather = ws at e3
  unfold isValid
  rw [e1, e2, e3]
  simp only
  rw [if_neg, if_neg]
  · by_cases hd : d = .FREEZING
    · rw [if_pos hd]
      obtain ⟨x, hx, hfx⟩ := h4 hd
      obtain ⟨j, hj⟩ := List.mem_iff_getElem?.mp hx
      have hjl : j < ws.length := by rw [List.getElem?_eq_some_iff] at hj; exact hj.1
      exact fzLoop_ok _ _ _ ⟨j, by omega, by omega, x, hj, hfx⟩
    · rw [if_neg hd]
  · simp [made]
  · rintro ⟨a, b, c⟩
    exact h3 a b (List.length_eq_zero_iff.mp c)

/-- C41: the text determines the phenomenon: different phenomena are never written the same. -/
theorem C41_unique (en : Bool) (q q' : Qualifier) (d d' : Descriptor) (ws ws' : List Weather)
    (h : AllowedWeather en q d ws) (h' : AllowedWeather en q' d' ws')
    (e : weatherWritten q d ws = weatherWritten q' d' ws') : q = q' ∧ d = d' ∧ ws = ws' := by
  have h1 := (C41_weather (weatherWritten q d ws) en (made q d ws)).mpr ⟨q, d, ws, h, rfl, rfl⟩
  have h2 := (C41_weather (weatherWritten q d ws) en (made q' d' ws')).mpr ⟨q', d', ws', h', e, rfl⟩
  have h3 : made q d ws = made q' d' ws' := Option.some.inj (h1.symm.trans h2)
  obtain ⟨a1, a2, a3, -⟩ := C40_lossless q d ws .NONE none (allowed_length h).1
  obtain ⟨b1, b2, b3, -⟩ := C40_lossless q' d' ws' .NONE none (allowed_length h').1
  change (made q d ws).qualifier = q at a1
  change (made q d ws).descriptor = d at a2
  change (made q d ws).weather = ws at a3
  change (made q' d' ws').qualifier = q' at b1
  change (made q' d' ws').descriptor = d' at b2
  change (made q' d' ws').weather = ws' at b3
  rw [h3] at a1 a2 a3
  exact ⟨a1.symm.trans b1, a2.symm.trans b2, a3.symm.trans b3⟩

/-- "+TSRAGR" is heavy thunderstorm with rain and hail; "RERARA" repeats a code; "SHDZ" has no
showery precipitation. -/
example : fromString c!"+TSRAGR" true = some (made .HEAVY .THUNDERSTORM [.RAIN, .HAIL]) ∧
    fromString c!"RERARA" true = none ∧ fromString c!"SHDZ" true = none ∧
    fromString c!"FZFG" true = some (made .NONE .FREEZING [.FOG]) := by decide +kernel

end Metaf.Props
