import Verif.Model.GroupsC
import Verif.Proofs.RegexText
import Verif.Props.DistanceText
import Verif.Props.MinMax
import Verif.Proofs.Util

/-!
C57: forecast layers of icing and turbulence.
-/

set_option linter.unusedSectionVars false

namespace Metaf.Props

open Metaf.Spec

variable [FloatSem]

/-- Icing by its code. -/
def icingCode : List LayerForecastType :=
  [.ICING_TRACE_OR_NONE, .ICING_LIGHT_MIXED, .ICING_LIGHT_RIME_IN_CLOUD,
   .ICING_LIGHT_CLEAR_IN_PRECIPITATION, .ICING_MODERATE_MIXED, .ICING_MODERATE_RIME_IN_CLOUD,
   .ICING_MODERATE_CLEAR_IN_PRECIPITATION, .ICING_SEVERE_MIXED, .ICING_SEVERE_RIME_IN_CLOUD,
   .ICING_SEVERE_CLEAR_IN_PRECIPITATION]

/-- Turbulence by its code. -/
def turbulenceCode : List LayerForecastType :=
  [.TURBULENCE_NONE, .TURBULENCE_LIGHT, .TURBULENCE_MODERATE_IN_CLEAR_AIR_OCCASIONAL,
   .TURBULENCE_MODERATE_IN_CLEAR_AIR_FREQUENT, .TURBULENCE_MODERATE_IN_CLOUD_OCCASIONAL,
   .TURBULENCE_MODERATE_IN_CLOUD_FREQUENT, .TURBULENCE_SEVERE_IN_CLEAR_AIR_OCCASIONAL,
   .TURBULENCE_SEVERE_IN_CLEAR_AIR_FREQUENT, .TURBULENCE_SEVERE_IN_CLOUD_OCCASIONAL,
   .TURBULENCE_SEVERE_IN_CLOUD_FREQUENT]

/-- What is forecast: `6` and a code of icing, `5` and a code of turbulence, `5X` extreme
turbulence. -/
def LayerKindWritten (s : Str) (t : LayerForecastType) : Prop :=
  (∃ k, icingCode[k]? = some t ∧ s = ['6', Nat.digitChar k]) ∨
  (∃ k, turbulenceCode[k]? = some t ∧ s = ['5', Nat.digitChar k]) ∨
  (s = c!"5X" ∧ t = .TURBULENCE_EXTREME)

/-- The layer: base in hundreds of feet and thickness in thousands of feet, or not known. -/
def LayerWritten (s : Str) (base top : Distance) : Prop :=
  (s = c!"////" ∧ base = ⟨.NONE, none, .METERS⟩ ∧ top = ⟨.NONE, none, .METERS⟩) ∨
  ∃ n m, n < 1000 ∧ m < 10 ∧ s = decimal 3 n ++ decimal 1 m ∧
    base = ⟨.NONE, some (100 * n), .FEET⟩ ∧ top = ⟨.NONE, some (100 * n + 1000 * m), .FEET⟩

theorem layerKind_iff (s : Str) (t : LayerForecastType) :
    LayerForecastGroup.typeFromStr s = some t ↔ LayerKindWritten s t := by
  constructor
  · intro h
    unfold LayerForecastGroup.typeFromStr at h
    ite_cases h
    all_goals first
      | cases h; done
      | skip
    all_goals obtain rfl := Option.some.inj h
    all_goals clear h
    all_goals subst s
    all_goals first
      | exact Or.inl ⟨0, rfl, rfl⟩
      | exact Or.inr (Or.inl ⟨0, rfl, rfl⟩)
      | exact Or.inl ⟨1, rfl, rfl⟩
      | exact Or.inr (Or.inl ⟨1, rfl, rfl⟩)
      | exact Or.inl ⟨2, rfl, rfl⟩
      | exact Or.inr (Or.inl ⟨2, rfl, rfl⟩)
      | exact Or.inl ⟨3, rfl, rfl⟩
      | exact Or.inr (Or.inl ⟨3, rfl, rfl⟩)
      | exact Or.inl ⟨4, rfl, rfl⟩
      | exact Or.inr (Or.inl ⟨4, rfl, rfl⟩)
      | exact Or.inl ⟨5, rfl, rfl⟩
      | exact Or.inr (Or.inl ⟨5, rfl, rfl⟩)
      | exact Or.inl ⟨6, rfl, rfl⟩
      | exact Or.inr (Or.inl ⟨6, rfl, rfl⟩)
      | exact Or.inl ⟨7, rfl, rfl⟩
      | exact Or.inr (Or.inl ⟨7, rfl, rfl⟩)
      | exact Or.inl ⟨8, rfl, rfl⟩
      | exact Or.inr (Or.inl ⟨8, rfl, rfl⟩)
      | exact Or.inl ⟨9, rfl, rfl⟩
      | exact Or.inr (Or.inl ⟨9, rfl, rfl⟩)
      | exact Or.inr (Or.inr ⟨rfl, rfl⟩)
  · rintro (⟨k, hk, rfl⟩ | ⟨k, hk, rfl⟩ | ⟨rfl, rfl⟩)
    · have hk10 : k < 10 := (List.getElem?_eq_some_iff.mp hk).1
      revert hk
      revert t
      revert k
      decide
    · have hk10 : k < 10 := (List.getElem?_eq_some_iff.mp hk).1
      revert hk
      revert t
      revert k
      decide
    · rfl

/-- The text of a forecast layer by shape. -/
def LayerOk (f : Char × Char × Str) : Prop :=
  (f.1 = '6' ∨ f.1 = '5') ∧ (isDigit f.2.1 = true ∨ f.2.1 = 'X') ∧
    (f.2.2 = c!"////" ∨ ∃ n < 10000, f.2.2 = decimal 4 n)

theorem match_layer (s : Str) (c : Caps) : LayerForecastGroup.rgx.Match s c ↔
    ∃ f, LayerOk f ∧ s = [f.1, f.2.1] ++ f.2.2 ∧ c = [(2, f.2.2), (1, [f.1, f.2.1])] := by
  have hset : ∀ x : Char, Rx.inSet [('0', '9'), ('X', 'X')] x = true ↔ (isDigit x = true ∨ x = 'X') := by
    intro x
    simp only [Rx.inSet, List.any_cons, List.any_nil, Bool.or_false, Bool.or_eq_true, Bool.and_eq_true,
      decide_eq_true_eq, isDigit]
    refine or_congr_right ⟨fun h => ?_, fun h => by subst h; decide⟩
    exact Char.ext (UInt32.toNat_inj.mp (le_antisymm h.2 h.1))
  rw [LayerForecastGroup.rgx]
  simp only [Rx.match_seq (a := .cap _ _), Rx.match_seq (a := .oneOf _), Rx.match_cap, Rx.match_alt,
    Rx.match_oneOf, Rx.match_set, hset, ↓Rx.match_digits4, Rx.match_lit, List.mem_cons, List.not_mem_nil,
    or_false]
  constructor
  · rintro ⟨_, _, _, _, ⟨_, ⟨_, _, _, _, ⟨x, hx, rfl, rfl⟩, ⟨y, hy, rfl, rfl⟩, rfl, rfl⟩, rfl⟩,
      ⟨_, h, rfl⟩, rfl, rfl⟩
    rcases h with ⟨rfl, n, hn, rfl⟩ | ⟨rfl, rfl⟩
    · exact ⟨(x, y, _), ⟨hx, hy, Or.inr ⟨n, hn, rfl⟩⟩, rfl, rfl⟩
    · exact ⟨(x, y, _), ⟨hx, hy, Or.inl rfl⟩, rfl, rfl⟩
  · rintro ⟨⟨x, y, v⟩, ⟨hx, hy, hv⟩, rfl, rfl⟩
    refine ⟨[x] ++ [y], v, _, _, ⟨_, ⟨_, _, [], [], ⟨x, hx, rfl, rfl⟩, ⟨y, hy, rfl, rfl⟩, rfl, rfl⟩, rfl⟩,
      ⟨[], ?_, rfl⟩, rfl, rfl⟩
    rcases hv with h | h
    · exact Or.inr ⟨h, rfl⟩
    · exact Or.inl ⟨rfl, h⟩

/-- C57: a text in a forecast is recognised as a layer exactly if it is a kind of icing or turbulence
followed by a layer, and the group holds the kind, base and top written. -/
theorem C57_layer (s : Str) (g : LayerForecastGroup) :
    LayerForecastGroup.parse s .TAF = some g ↔
      ∃ a b, s = a ++ b ∧ LayerKindWritten a g.layerType ∧
        LayerWritten b g.layerBaseHeight g.layerTopHeight := by
  have hr := regexMatch_form match_layer (by
    rintro ⟨x, y, v⟩ ⟨x', y', v'⟩ - - e
    simp only [List.cons_append, List.nil_append, List.cons.injEq] at e
    obtain ⟨rfl, rfl, rfl⟩ := e
    rfl)
  have kindOf : ∀ {a t}, LayerKindWritten a t → ∃ x y, a = [x, y] ∧ (x = '6' ∨ x = '5') ∧
      (isDigit y = true ∨ y = 'X') := by
    rintro a t (⟨k, hk, rfl⟩ | ⟨k, hk, rfl⟩ | ⟨rfl, -⟩)
    · exact ⟨_, _, rfl, Or.inl rfl, Or.inl (digitChar_isDigit (List.getElem?_eq_some_iff.mp hk).1)⟩
    · exact ⟨_, _, rfl, Or.inr rfl, Or.inl (digitChar_isDigit (List.getElem?_eq_some_iff.mp hk).1)⟩
    · exact ⟨_, _, rfl, Or.inr rfl, Or.inr rfl⟩
  have layerOf : ∀ {b x y}, LayerWritten b x y → b = c!"////" ∨ ∃ n < 10000, b = decimal 4 n := by
    rintro b x y (⟨rfl, -⟩ | ⟨n, m, hn, hm, rfl, -⟩)
    · exact Or.inl rfl
    · refine Or.inr ⟨10 * n + m, by omega, ?_⟩
      rw [show decimal 4 (10 * n + m) = decimal 3 ((10 * n + m) / 10) ++ [Nat.digitChar ((10 * n + m) % 10)]
        from rfl, show (10 * n + m) / 10 = n by omega, show (10 * n + m) % 10 = m % 10 by omega]
      rfl
  have heights : ∀ b g', (b = c!"////" ∨ ∃ n < 10000, b = decimal 4 n) → ∀ t,
      ((if b = c!"////" then some ({ layerType := t } : LayerForecastGroup)
        else match Distance.fromLayerString b with
          | none => none
          | some (base, top) => some { layerType := t, layerBaseHeight := base, layerTopHeight := top })
        = some g' ↔ g'.layerType = t ∧ LayerWritten b g'.layerBaseHeight g'.layerTopHeight) := by
    intro b g' hb t
    obtain ⟨gt, gb, gp⟩ := g'
    by_cases hs : b = c!"////"
    · rw [if_pos hs]
      subst hs
      have hno : ∀ n m, c!"////" ≠ decimal 3 n ++ decimal 1 m := by
        intro n m e
        have d : ∀ n, '/' ≠ Nat.digitChar (n % 10) := fun n => (digitChar_mod_ne rfl).symm
        simp [decimal_three, d] at e
      constructor
      · intro e
        cases e
        exact ⟨rfl, Or.inl ⟨rfl, rfl, rfl⟩⟩
      · rintro ⟨rfl, ⟨-, h1, h2⟩ | ⟨n, m, -, -, e, -⟩⟩
        · simp only at h1 h2
          subst h1 h2
          rfl
        · exact absurd e (hno n m)
    · rw [if_neg hs]
      have hl : LayerWritten b gb gp ↔ Distance.fromLayerString b = some (gb, gp) := by
        rw [C48_layer]
        exact ⟨fun h => h.resolve_left (fun h => hs h.1), Or.inr⟩
      rw [hl]
      cases hd : Distance.fromLayerString b with
      | none => simp
      | some x =>
        obtain ⟨x, y⟩ := x
        simp only [Option.some.injEq, LayerForecastGroup.mk.injEq, Prod.mk.injEq]
        tauto
  constructor
  · intro h
    rw [LayerForecastGroup.parse, if_neg (by decide)] at h
    cases hm : regexMatch LayerForecastGroup.rgx s with
    | none => rw [hm] at h; cases h
    | some m =>
      obtain ⟨⟨x, y, v⟩, ⟨hx, hy, hv⟩, rfl, rfl⟩ := (hr s m).mp hm
      rw [hm] at h
      have e1 : Caps.str [(2, v), (1, [x, y])] 1 = [x, y] := rfl
      have e2 : Caps.str [(2, v), (1, [x, y])] 2 = v := rfl
      simp only [e1, e2] at h
      cases ht : LayerForecastGroup.typeFromStr [x, y] with
      | none => rw [ht] at h; cases h
      | some t =>
        rw [ht] at h
        obtain ⟨rfl, hw⟩ := (heights v g hv t).mp h
        exact ⟨[x, y], v, rfl, (layerKind_iff _ _).mp ht, hw⟩
  · rintro ⟨a, b, rfl, ha, hb⟩
    obtain ⟨x, y, rfl, hx, hy⟩ := kindOf ha
    rw [LayerForecastGroup.parse, if_neg (by decide),
      (hr _ _).mpr ⟨(x, y, b), ⟨hx, hy, layerOf hb⟩, rfl, rfl⟩]
    have e1 : Caps.str [(2, b), (1, [x, y])] 1 = [x, y] := rfl
    have e2 : Caps.str [(2, b), (1, [x, y])] 2 = b := rfl
    simp only [e1, e2, (layerKind_iff _ _).mpr ha]
    exact (heights b g (layerOf hb) _).mpr ⟨rfl, hb⟩

/-- C57: elsewhere layers are not looked for, and they take no further text. -/
theorem C57_elsewhere (s : Str) (part : ReportPart) (h : part ≠ .TAF) :
    LayerForecastGroup.parse s part = none := by
  simp [LayerForecastGroup.parse, h]

theorem C57_append (s : Str) (g : LayerForecastGroup) : g.append s = (g, .NOT_APPENDED) := rfl

/-- C57: the base of a recognised layer is never above its top. -/
theorem C57_base_below_top (s : Str) (g : LayerForecastGroup)
    (h : LayerForecastGroup.parse s .TAF = some g) :
    (g.layerBaseHeight.dist = none ∧ g.layerTopHeight.dist = none) ∨
    ∃ a b, g.layerBaseHeight = ⟨.NONE, some a, .FEET⟩ ∧ g.layerTopHeight = ⟨.NONE, some b, .FEET⟩ ∧ a ≤ b := by
  obtain ⟨a, b, -, -, ⟨-, h1, h2⟩ | ⟨n, m, -, -, -, h1, h2⟩⟩ := (C57_layer _ _).mp h
  · exact Or.inl (by rw [h1, h2]; exact ⟨rfl, rfl⟩)
  · exact Or.inr ⟨_, _, h1, h2, by omega⟩

example : ∃ g, LayerForecastGroup.parse c!"540009" .TAF = some g :=
  ⟨⟨.TURBULENCE_MODERATE_IN_CLOUD_OCCASIONAL, ⟨.NONE, some 0, .FEET⟩, ⟨.NONE, some 9000, .FEET⟩⟩,
    (C57_layer _ _).mpr ⟨c!"54", c!"0009", rfl, Or.inr (Or.inl ⟨4, rfl, rfl⟩),
      Or.inr ⟨0, 9, by decide, by decide, rfl, rfl, rfl⟩⟩⟩
example : ¬ ∃ t, LayerKindWritten c!"6X" t := by
  rintro ⟨t, ⟨k, hk, e⟩ | ⟨k, hk, e⟩ | ⟨e, -⟩⟩
  · have hk10 : k < 10 := (List.getElem?_eq_some_iff.mp hk).1
    simp only [List.cons.injEq, true_and, and_true] at e
    exact digitChar_ne rfl hk10 e.symm
  · simp at e
  · simp at e

end Metaf.Props
