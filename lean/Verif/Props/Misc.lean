import Verif.Props.Headings
import Verif.Props.WeatherEvents
import Verif.Proofs.Float
import Verif.Ieee

/-!
Property C62: colour codes, corrections, issuers, sunshine, density altitude and hailstones are those
written.
-/

namespace Metaf.Props

set_option linter.unusedSectionVars false

open Metaf Metaf.Spec Metaf.MiscGroup Metaf.WeatherPhenomena

variable [FloatIeee]

/-- Colour codes. -/
def colourCodes : List (Str × MiscType) :=
  [(c!"BLU+", .COLOUR_CODE_BLUE_PLUS), (c!"BLU", .COLOUR_CODE_BLUE), (c!"WHT", .COLOUR_CODE_WHITE),
   (c!"GRN", .COLOUR_CODE_GREEN), (c!"YLO", .COLOUR_CODE_YELLOW), (c!"YLO1", .COLOUR_CODE_YELLOW1),
   (c!"YLO2", .COLOUR_CODE_YELLOW2), (c!"AMB", .COLOUR_CODE_AMBER), (c!"RED", .COLOUR_CODE_RED),
   (c!"BLACKBLU+", .COLOUR_CODE_BLACKBLUE_PLUS), (c!"BLACKBLU", .COLOUR_CODE_BLACKBLUE),
   (c!"BLACKWHT", .COLOUR_CODE_BLACKWHITE), (c!"BLACKGRN", .COLOUR_CODE_BLACKGREEN),
   (c!"BLACKYLO", .COLOUR_CODE_BLACKYELLOW), (c!"BLACKYLO1", .COLOUR_CODE_BLACKYELLOW1),
   (c!"BLACKYLO2", .COLOUR_CODE_BLACKYELLOW2), (c!"BLACKAMB", .COLOUR_CODE_BLACKAMBER),
   (c!"BLACKRED", .COLOUR_CODE_BLACKRED)]

/-- Quarters of an inch in text. -/
def quarterTexts : List (Str × Nat) := [(c!"1/4", 1), (c!"1/2", 2), (c!"2/4", 2), (c!"3/4", 3)]

/-- The miscellaneous texts of each part of a report and the values they stand for. Density altitude
and hailstones consist of several texts. -/
inductive MiscText : ReportPart → List Str → MiscGroup → Prop
  | colour {p w t} : p = .METAR ∨ p = .RMK → (w, t) ∈ colourCodes → MiscText p [w] { groupType := t }
  | correction {i} : i < 26 → MiscText .METAR [c!"CC" ++ [Char.ofNat ('A'.toNat + i)]]
      { groupType := .CORRECTED_WEATHER_OBSERVATION, groupData := some ((i + 1 : Nat) : Rat) }
  | issuerN {n} : n < 100000 → MiscText .TAF [c!"FN" ++ decimal 5 n]
      { groupType := .ISSUER_ID_FN, groupData := some (n : Rat) }
  | issuerS {n} : n < 100000 → MiscText .TAF [c!"FS" ++ decimal 5 n]
      { groupType := .ISSUER_ID_FS, groupData := some (n : Rat) }
  | sunshine {n} : n < 1000 → MiscText .RMK [c!"98" ++ decimal 3 n]
      { groupType := .SUNSHINE_DURATION_MINUTES, groupData := some (n : Rat) }
  | frostOnInstrument : MiscText .RMK [c!"FROIN"] { groupType := .FROIN }
  | density : MiscText .RMK [c!"DENSITY"]
      { groupType := .DENSITY_ALTITUDE, incompleteText := .DENSITY }
  | densityAlt : MiscText .RMK [c!"DENSITY", c!"ALT"]
      { groupType := .DENSITY_ALTITUDE, incompleteText := .DENSITY_ALT }
  | densityMissing : MiscText .RMK [c!"DENSITY", c!"ALT", c!"MISG"] { groupType := .DENSITY_ALTITUDE }
  | densityValue {k n} : 0 < k → n < 10 ^ k →
      MiscText .RMK [c!"DENSITY", c!"ALT", decimal k n ++ c!"FT"]
        { groupType := .DENSITY_ALTITUDE, groupData := some (f32 ((n % 2 ^ 32 : Nat) : Rat)) }
  | hail : MiscText .RMK [c!"GR"] { groupType := .HAILSTONE_SIZE, incompleteText := .GR }
  | hailInches {n} : 1 ≤ n → n ≤ 9 → MiscText .RMK [c!"GR", decimal 1 n]
      { groupType := .HAILSTONE_SIZE, groupData := some (n : Rat), incompleteText := .GR_INT }
  | hailQuarters {w q} : (w, q) ∈ quarterTexts → MiscText .RMK [c!"GR", w]
      { groupType := .HAILSTONE_SIZE, groupData := some ((q : Rat) / 4) }
  | hailBoth {n w q} : 1 ≤ n → n ≤ 9 → (w, q) ∈ quarterTexts → MiscText .RMK [c!"GR", decimal 1 n, w]
      { groupType := .HAILSTONE_SIZE, groupData := some (n + (q : Rat) / 4) }

theorem colour_iff (s : Str) (t : MiscType) : parseColourCode s = some t ↔ (s, t) ∈ colourCodes := by
  constructor
  · intro h
    unfold parseColourCode at h
    ite_cases h
    all_goals first
      | (cases h; done)
      | skip
    all_goals obtain rfl := Option.some.inj h
    all_goals (clear h; subst s; simp [colourCodes])
  · intro h
    simp only [colourCodes, List.mem_cons, Prod.mk.injEq, List.not_mem_nil, or_false] at h
    rcases h with ⟨rfl, rfl⟩ | ⟨rfl, rfl⟩ | ⟨rfl, rfl⟩ | ⟨rfl, rfl⟩ | ⟨rfl, rfl⟩ | ⟨rfl, rfl⟩ |
      ⟨rfl, rfl⟩ | ⟨rfl, rfl⟩ | ⟨rfl, rfl⟩ | ⟨rfl, rfl⟩ | ⟨rfl, rfl⟩ | ⟨rfl, rfl⟩ | ⟨rfl, rfl⟩ |
      ⟨rfl, rfl⟩ | ⟨rfl, rfl⟩ | ⟨rfl, rfl⟩ | ⟨rfl, rfl⟩ | ⟨rfl, rfl⟩ <;> rfl

theorem stoi_decimal (k n : Nat) (h : n < 10 ^ k) : stoi (decimal k n) = n := by
  induction k generalizing n with
  | zero => simp at h; subst h; rfl
  | succ k ih =>
    have := ih (n / 10) (by rw [Nat.pow_succ] at h; omega)
    unfold stoi at this ⊢
    rw [decimal, List.foldl_append, this]
    simp only [List.foldl_cons, List.foldl_nil]
    rw [digitVal_digitChar (by omega)]
    omega

theorem match_digits5 {w : Str} {c : Caps} :
    Rx.Match (.d ⬝ .d ⬝ .d ⬝ .d ⬝ .d) w c ↔ c = [] ∧ ∃ n < 100000, w = decimal 5 n := by
  rw [Rx.match_seq]
  simp only [↓Rx.match_digits4, Rx.match_d]
  constructor
  · rintro ⟨_, _, _, _, ⟨x, hx, rfl, rfl⟩, ⟨rfl, n, hn, rfl⟩, rfl, rfl⟩
    refine ⟨rfl, ?_⟩
    obtain ⟨m, hm, e⟩ := digits_decimal ([x] ++ decimal 4 n) (by
      intro c hc
      rcases List.mem_append.mp hc with hc | hc
      · rw [List.mem_singleton.mp hc]; exact hx
      · exact decimal_digits _ _ c hc)
    simp only [List.length_append, List.length_singleton, decimal_length] at hm e
    exact ⟨m, hm, e⟩
  · rintro ⟨rfl, n, hn, rfl⟩
    have hl := decimal_length 5 n
    have hd := decimal_digits 5 n
    generalize decimal 5 n = s at hl hd
    cases s with
    | nil => simp at hl
    | cons a t =>
      obtain ⟨m, hm, e⟩ := digits_decimal t (fun c hc => hd c (by simp [hc]))
      have ht : t.length = 4 := by simpa using hl
      rw [ht] at hm e
      exact ⟨[a], t, [], [], ⟨a, hd a (by simp), rfl, rfl⟩, ⟨rfl, m, by omega, e⟩, rfl, rfl⟩

theorem sunshine_iff (s : Str) (m : Caps) : regexMatch sunshineRgx s = some m ↔
    ∃ n, n < 1000 ∧ s = c!"98" ++ decimal 3 n ∧ m = [(1, decimal 3 n)] := by
  apply regexMatch_form
  · intro s c
    unfold sunshineRgx
    rw [Rx.match_seq]
    simp only [Rx.match_lit, Rx.match_cap, ↓Rx.match_digits3]
    constructor
    · rintro ⟨_, _, _, _, ⟨rfl, rfl⟩, ⟨_, ⟨rfl, n, hn, rfl⟩, rfl⟩, rfl, rfl⟩
      exact ⟨n, hn, rfl, rfl⟩
    · rintro ⟨n, hn, rfl, rfl⟩
      exact ⟨_, _, _, _, ⟨rfl, rfl⟩, ⟨_, ⟨rfl, n, hn, rfl⟩, rfl⟩, rfl, rfl⟩
  · intro f f' hf hf' e
    rw [List.append_cancel_left e]

theorem capital_letter {x : Char} (h : 'A' ≤ x ∧ x ≤ 'Z') :
    ∃ i < 26, x = Char.ofNat ('A'.toNat + i) ∧ x.toNat - 'A'.toNat = i := by
  have h1 : 'A'.toNat ≤ x.toNat := h.1
  have h2 : x.toNat ≤ 'Z'.toNat := h.2
  refine ⟨x.toNat - 'A'.toNat, ?_, ?_, rfl⟩
  · have : 'A'.toNat = 65 := rfl
    have : 'Z'.toNat = 90 := rfl
    omega
  · rw [Nat.add_sub_cancel' h1, Char.ofNat_toNat]

theorem letter_capital {i : Nat} (h : i < 26) :
    ('A' ≤ Char.ofNat ('A'.toNat + i) ∧ Char.ofNat ('A'.toNat + i) ≤ 'Z') ∧
    (Char.ofNat ('A'.toNat + i)).toNat - 'A'.toNat = i := by
  have : ∀ i < 26, ('A' ≤ Char.ofNat ('A'.toNat + i) ∧ Char.ofNat ('A'.toNat + i) ≤ 'Z') ∧
    (Char.ofNat ('A'.toNat + i)).toNat - 'A'.toNat = i := by decide
  exact this i h

theorem correction_iff (s : Str) (m : Caps) : regexMatch correctionRgx s = some m ↔
    ∃ i, i < 26 ∧ s = c!"CC" ++ [Char.ofNat ('A'.toNat + i)] ∧
      m = [(1, [Char.ofNat ('A'.toNat + i)])] := by
  apply regexMatch_form
  · intro s c
    unfold correctionRgx
    rw [Rx.match_seq]
    simp only [Rx.match_lit, Rx.match_cap, ↓Rx.match_AZ]
    constructor
    · rintro ⟨_, _, _, _, ⟨rfl, rfl⟩, ⟨_, ⟨x, hx, rfl, rfl⟩, rfl⟩, rfl, rfl⟩
      obtain ⟨i, hi, rfl, -⟩ := capital_letter hx
      exact ⟨i, hi, rfl, rfl⟩
    · rintro ⟨i, hi, rfl, rfl⟩
      exact ⟨_, _, _, _, ⟨rfl, rfl⟩, ⟨_, ⟨_, (letter_capital hi).1, rfl, rfl⟩, rfl⟩, rfl, rfl⟩
  · intro f f' hf hf' e
    rw [List.append_cancel_left e]

theorem issuer_iff (s : Str) (m : Caps) : regexMatch issuerRgx s = some m ↔
    ∃ f : Char × Nat, ((f.1 = 'N' ∨ f.1 = 'S') ∧ f.2 < 100000) ∧ s = 'F' :: f.1 :: decimal 5 f.2 ∧
      m = [(2, decimal 5 f.2), (1, [f.1])] := by
  apply regexMatch_form
  · intro s c
    unfold issuerRgx
    simp only [Rx.match_seq (a := .chr 'F'), Rx.match_seq (a := .cap 1 _), Rx.match_chr, Rx.match_cap,
      Rx.match_oneOf, ↓match_digits5]
    constructor
    · rintro ⟨_, _, _, _, ⟨rfl, rfl⟩, ⟨_, _, _, _, ⟨_, ⟨x, hx, rfl, rfl⟩, rfl⟩,
        ⟨_, ⟨rfl, n, hn, rfl⟩, rfl⟩, rfl, rfl⟩, rfl, rfl⟩
      exact ⟨(x, n), ⟨by simpa using hx, hn⟩, rfl, rfl⟩
    · rintro ⟨⟨x, n⟩, ⟨hx, hn⟩, rfl, rfl⟩
      exact ⟨_, _, _, _, ⟨rfl, rfl⟩, ⟨_, _, _, _, ⟨_, ⟨x, by simpa using hx, rfl, rfl⟩, rfl⟩,
        ⟨_, ⟨rfl, n, hn, rfl⟩, rfl⟩, rfl, rfl⟩, rfl, rfl⟩
  · rintro ⟨x, n⟩ ⟨x', n'⟩ - - e
    simp only [List.cons.injEq, true_and] at e
    simp [e.1, e.2]

/-- The first texts. -/
theorem parse_misc (s : Str) (p : ReportPart) (g : MiscGroup) :
    MiscGroup.parse s p = some g ↔ MiscText p [s] g := by
  have colour_none : ∀ {s : Str}, (∀ t, (s, t) ∉ colourCodes) → parseColourCode s = none := by
    intro s h
    cases hc : parseColourCode s with
    | none => rfl
    | some t => exact absurd ((colour_iff _ _).mp hc) (h t)
  constructor
  · intro h
    unfold MiscGroup.parse at h
    cases p with
    | UNKNOWN => cases h
    | HEADER => cases h
    | METAR =>
      simp only at h
      cases hc : parseColourCode s with
      | some t =>
        simp only [hc, Option.some.injEq] at h
        subst h
        exact .colour (Or.inl rfl) ((colour_iff _ _).mp hc)
      | none =>
        simp only [hc] at h
        cases hm : regexMatch correctionRgx s with
        | none => simp [hm] at h
        | some m =>
          obtain ⟨i, hi, rfl, rfl⟩ := (correction_iff _ _).mp hm
          simp only [hm, Option.some.injEq] at h
          subst h
          have e : ch (Caps.str [(1, [Char.ofNat ('A'.toNat + i)])] 1) 0 = Char.ofNat ('A'.toNat + i) := rfl
          rw [e, (letter_capital hi).2, f32_nat (by omega)]
          exact .correction hi
    | TAF =>
      simp only at h
      cases hm : regexMatch issuerRgx s with
      | none => simp [hm] at h
      | some m =>
        obtain ⟨⟨x, n⟩, ⟨hx, hn⟩, rfl, rfl⟩ := (issuer_iff _ _).mp hm
        simp only [hm, Option.some.injEq] at h
        subst h
        have e1 : Caps.str [(2, decimal 5 n), (1, [x])] 1 = [x] := rfl
        have e2 : Caps.str [(2, decimal 5 n), (1, [x])] 2 = decimal 5 n := rfl
        simp only at hn hx
        simp only [e1, e2]
        rw [stoi_decimal 5 n hn, f32_nat (by omega)]
        rcases hx with rfl | rfl
        · exact .issuerN hn
        · exact .issuerS hn
    | RMK =>
      simp only at h
      cases hc : parseColourCode s with
      | some t =>
        simp only [hc, Option.some.injEq] at h
        subst h
        exact .colour (Or.inr rfl) ((colour_iff _ _).mp hc)
      | none =>
        simp only [hc] at h
        by_cases e1 : s = c!"GR"
        · rw [if_pos e1] at h
          obtain rfl := Option.some.inj h
          subst e1
          exact .hail
        rw [if_neg e1] at h
        by_cases e2 : s = c!"DENSITY"
        · rw [if_pos e2] at h
          obtain rfl := Option.some.inj h
          subst e2
          exact .density
        rw [if_neg e2] at h
        cases hm : regexMatch sunshineRgx s with
        | some m =>
          obtain ⟨n, hn, rfl, rfl⟩ := (sunshine_iff _ _).mp hm
          simp only [hm, Option.some.injEq] at h
          subst h
          rw [show Caps.str [(1, decimal 3 n)] 1 = decimal 3 n from rfl, stoi_decimal 3 n hn,
            f32_nat (by omega)]
          exact .sunshine hn
        | none =>
          simp only [hm] at h
          by_cases e3 : s = c!"FROIN"
          · rw [if_pos e3] at h
            obtain rfl := Option.some.inj h
            subst e3
            exact .frostOnInstrument
          · rw [if_neg e3] at h
            cases h
  · intro h
    unfold MiscGroup.parse
    cases h with
    | colour hp hw =>
      rcases hp with rfl | rfl
      · simp only [(colour_iff _ _).mpr hw]
      · simp only [(colour_iff _ _).mpr hw]
    | @correction i hi =>
      simp only
      rw [colour_none (by
        intro t ht
        simp only [colourCodes, List.mem_cons, Prod.mk.injEq, List.cons_append, List.nil_append,
          List.cons.injEq, reduceCtorEq, and_false, false_and, or_false, List.not_mem_nil,
          Char.reduceEq] at ht)]
      rw [(correction_iff _ _).mpr ⟨i, hi, rfl, rfl⟩]
      have e : ch (Caps.str [(1, [Char.ofNat ('A'.toNat + i)])] 1) 0 = Char.ofNat ('A'.toNat + i) := rfl
      simp only [e]
      rw [(letter_capital hi).2, f32_nat (by omega)]
    | @issuerN n hn =>
      simp only
      have := (issuer_iff ('F' :: 'N' :: decimal 5 n) _).mpr ⟨('N', n), ⟨Or.inl rfl, hn⟩, rfl, rfl⟩
      rw [show c!"FN" ++ decimal 5 n = 'F' :: 'N' :: decimal 5 n from rfl, this]
      have e1 : Caps.str [(2, decimal 5 n), (1, ['N'])] 1 = c!"N" := rfl
      have e2 : Caps.str [(2, decimal 5 n), (1, ['N'])] 2 = decimal 5 n := rfl
      simp only [e1, e2, if_true]
      rw [stoi_decimal 5 n hn, f32_nat (by omega)]
    | @issuerS n hn =>
      simp only
      have := (issuer_iff ('F' :: 'S' :: decimal 5 n) _).mpr ⟨('S', n), ⟨Or.inr rfl, hn⟩, rfl, rfl⟩
      rw [show c!"FS" ++ decimal 5 n = 'F' :: 'S' :: decimal 5 n from rfl, this]
      have e1 : Caps.str [(2, decimal 5 n), (1, ['S'])] 1 = c!"S" := rfl
      have e2 : Caps.str [(2, decimal 5 n), (1, ['S'])] 2 = decimal 5 n := rfl
      simp only [e1, e2]
      rw [stoi_decimal 5 n hn, f32_nat (by omega), if_neg (by decide)]
    | @sunshine n hn =>
      simp only
      rw [colour_none (by
        intro t ht
        simp only [colourCodes, List.mem_cons, Prod.mk.injEq, List.cons_append, List.nil_append,
          List.cons.injEq, and_false, false_and, or_false, List.not_mem_nil, Char.reduceEq] at ht)]
      simp only
      rw [if_neg (by simp), if_neg (by simp), (sunshine_iff _ _).mpr ⟨n, hn, rfl, rfl⟩]
      simp only
      rw [show Caps.str [(1, decimal 3 n)] 1 = decimal 3 n from rfl, stoi_decimal 3 n hn,
        f32_nat (by omega)]
    | frostOnInstrument =>
      have : regexMatch sunshineRgx c!"FROIN" = none := by decide +kernel
      simp only
      rw [show parseColourCode c!"FROIN" = none by decide +kernel, this]
      rfl
    | density => rfl
    | hail => rfl

theorem exact_quarter (m : Nat) (h : m < 1000) : f32 (f64 ((m : Rat) / 4)) = (m : Rat) / 4 := by
  have e : f32 ((m : Rat) / 4) = (m : Rat) / 4 := by
    have h2 : (m : Rat) / 4 = ((m : Int) : Rat) * 2 ^ (-2 : Int) := by
      rw [zpow_neg, div_eq_mul_inv]
      norm_num
    rw [h2]
    apply FloatIeee.f32_rep
    · rw [abs_of_nonneg (by positivity)]
      have : (m : Int) < 1000 := by exact_mod_cast h
      omega
    · norm_num
  rw [← e, FloatSem.f64_f32, FloatSem.f32_idem]

theorem hailFraction_iff (g g' : MiscGroup) (s : Str) (n : Nat) (hn : n ≤ 9)
    (hg : g.groupData.getD 0 = n) : g.appendHailstoneFraction s = some g' ↔
      ∃ q, (s, q) ∈ quarterTexts ∧
        g' = { g with groupData := some (n + (q : Rat) / 4), incompleteText := .NONE } := by
  have sum : ∀ q : Nat, q ≤ 3 → f32 (f64 ((n : Rat) + (q : Rat) / 4)) = n + (q : Rat) / 4 := by
    intro q hq
    have := exact_quarter (4 * n + q) (by omega)
    push_cast at this
    rw [show ((4 : Rat) * n + q) / 4 = n + q / 4 by ring] at this
    exact this
  have s1 := sum 1 (by omega)
  have s2 := sum 2 (by omega)
  have s3 := sum 3 (by omega)
  have r2 : ((2 : Nat) : Rat) / 4 = 1 / 2 := by norm_num
  rw [r2] at s2
  push_cast at s1 s2 s3
  unfold appendHailstoneFraction
  simp only [hg, quarterTexts, List.mem_cons, Prod.mk.injEq, List.not_mem_nil, or_false]
  rw [s1, s2, s3]
  by_cases h1 : s = c!"1/4"
  · subst h1
    rw [if_pos rfl]
    constructor
    · intro h
      exact ⟨1, Or.inl ⟨rfl, rfl⟩, by rw [← Option.some.inj h]; norm_num⟩
    · rintro ⟨q, (⟨-, rfl⟩ | ⟨h, -⟩ | ⟨h, -⟩ | ⟨h, -⟩), rfl⟩
      · norm_num
      all_goals cases h
  rw [if_neg h1]
  by_cases h2 : s = c!"1/2" ∨ s = c!"2/4"
  · rw [if_pos h2]
    constructor
    · intro h
      refine ⟨2, ?_, by rw [← Option.some.inj h, r2]⟩
      rcases h2 with rfl | rfl
      · exact Or.inr (Or.inl ⟨rfl, rfl⟩)
      · exact Or.inr (Or.inr (Or.inl ⟨rfl, rfl⟩))
    · rintro ⟨q, hq, rfl⟩
      have : q = 2 := by
        rcases h2 with rfl | rfl <;> simp at hq <;> exact hq
      subst this
      rw [r2]
  rw [if_neg h2]
  by_cases h3 : s = c!"3/4"
  · subst h3
    rw [if_pos rfl]
    constructor
    · intro h
      exact ⟨3, Or.inr (Or.inr (Or.inr ⟨rfl, rfl⟩)), by rw [← Option.some.inj h]; norm_num⟩
    · rintro ⟨q, (⟨h, -⟩ | ⟨h, -⟩ | ⟨h, -⟩ | ⟨-, rfl⟩), rfl⟩
      · cases h
      · cases h
      · cases h
      · norm_num
  rw [if_neg h3]
  constructor
  · intro h; cases h
  · rintro ⟨q, (⟨h, -⟩ | ⟨h, -⟩ | ⟨h, -⟩ | ⟨h, -⟩), rfl⟩
    · exact absurd h h1
    · exact absurd (Or.inl h) h2
    · exact absurd (Or.inr h) h2
    · exact absurd h h3

theorem densityValue_iff (g g' : MiscGroup) (s : Str) : g.appendDensityAltitude s = some g' ↔
    ∃ k n, 0 < k ∧ n < 10 ^ k ∧ s = decimal k n ++ c!"FT" ∧
      g' = { g with groupData := some (f32 ((n % 2 ^ 32 : Nat) : Rat)), incompleteText := .NONE } := by
  unfold appendDensityAltitude
  constructor
  · intro h
    by_cases h1 : s.length < 3
    · rw [if_pos h1] at h; cases h
    rw [if_neg h1] at h
    by_cases h2 : s.drop (s.length - 2) = c!"FT"
    · rw [if_neg (by simpa using h2)] at h
      cases hv : strToUint s 0 (s.length - 2) with
      | none => simp [hv] at h
      | some v =>
        simp only [hv, Option.some.injEq] at h
        obtain ⟨h3, h4, n, hn, hp, rfl⟩ := strToUint_wrap.mp hv
        refine ⟨s.length - 2, n, h3, hn, ?_, h.symm⟩
        rw [← hp, ← h2]
        simp [part]
    · rw [if_pos (by simpa using h2)] at h; cases h
  · rintro ⟨k, n, hk, hn, rfl, rfl⟩
    have hl : (decimal k n ++ c!"FT").length = k + 2 := by simp [decimal_length]
    rw [hl, if_neg (by omega), Nat.add_sub_cancel,
      if_neg (by rw [List.drop_left' (decimal_length k n)]; simp)]
    have : strToUint (decimal k n ++ c!"FT") 0 k = some (n % 2 ^ 32) := by
      rw [strToUint_append _ (by simp [decimal_length])]
      refine strToUint_wrap.mpr ⟨hk, by simp [decimal_length], n, hn, ?_, rfl⟩
      simp [part, decimal_length]
    rw [this]

theorem hailDigit_iff (s : Str) :
    (s.length = 1 ∧ '1'.toNat ≤ (ch s 0).toNat ∧ (ch s 0).toNat ≤ '9'.toNat) ↔
      ∃ n, 1 ≤ n ∧ n ≤ 9 ∧ s = decimal 1 n := by
  constructor
  · rintro ⟨h1, h2, h3⟩
    match s, h1 with
    | [a], _ =>
      simp only [ch, List.getD_cons_zero] at h2 h3
      have e1 : '1'.toNat = 49 := rfl
      have e9 : '9'.toNat = 57 := rfl
      refine ⟨a.toNat - 48, by omega, by omega, ?_⟩
      rw [decimal_one]
      have : ∀ n, 49 ≤ n → n ≤ 57 → Char.ofNat n = Nat.digitChar ((n - 48) % 10) := by
        intro n h1 h2
        interval_cases n <;> rfl
      rw [← this a.toNat (by omega) (by omega), Char.ofNat_toNat]
  · rintro ⟨n, h1, h2, rfl⟩
    have : ∀ n < 10, 1 ≤ n → ((decimal 1 n).length = 1 ∧ '1'.toNat ≤ (ch (decimal 1 n) 0).toNat ∧
      (ch (decimal 1 n) 0).toNat ≤ '9'.toNat) := by decide
    exact this n (by omega) h1

theorem digit_not_quarter {n q : Nat} {w : Str} (h : (w, q) ∈ quarterTexts) : w ≠ decimal 1 n := by
  rintro rfl
  simp only [quarterTexts, List.mem_cons, Prod.mk.injEq, List.not_mem_nil, or_false] at h
  rcases h with ⟨h, -⟩ | ⟨h, -⟩ | ⟨h, -⟩ | ⟨h, -⟩ <;>
  · have := congrArg List.length h
    rw [decimal_length] at this
    simp at this

theorem append_hail (g : MiscGroup) (s : Str) (hg : g.incompleteText = .GR) (hd : g.groupData = none) :
    (∃ n, 1 ≤ n ∧ n ≤ 9 ∧ s = decimal 1 n ∧
      g.append s = ({ g with groupData := some (n : Rat), incompleteText := .GR_INT }, .APPENDED)) ∨
    (∃ q, (s, q) ∈ quarterTexts ∧
      g.append s = ({ g with groupData := some ((q : Rat) / 4), incompleteText := .NONE }, .APPENDED)) ∨
    g.append s = (g, .GROUP_INVALIDATED) := by
  unfold MiscGroup.append
  simp only [hg]
  by_cases h : s.length = 1 ∧ '1'.toNat ≤ (ch s 0).toNat ∧ (ch s 0).toNat ≤ '9'.toNat
  · obtain ⟨n, h1, h2, rfl⟩ := (hailDigit_iff s).mp h
    left
    refine ⟨n, h1, h2, rfl, ?_⟩
    rw [if_pos h]
    have : digitVal (ch (decimal 1 n) 0) = n := by
      rw [decimal_one]
      show digitVal (Nat.digitChar (n % 10)) = n
      rw [digitVal_digitChar (by omega)]
      omega
    rw [this, f32_nat (by omega)]
  · right
    rw [if_neg h]
    cases hf : g.appendHailstoneFraction s with
    | none => exact Or.inr rfl
    | some g' =>
      left
      obtain ⟨q, hq, rfl⟩ := (hailFraction_iff g g' s 0 (by omega) (by simp [hd])).mp hf
      exact ⟨q, hq, by simp⟩

theorem append_hailInt (g : MiscGroup) (s : Str) (n : Nat) (hn : n ≤ 9) (hg : g.incompleteText = .GR_INT)
    (hd : g.groupData = some (n : Rat)) :
    (∃ q, (s, q) ∈ quarterTexts ∧
      g.append s = ({ g with groupData := some (n + (q : Rat) / 4), incompleteText := .NONE }, .APPENDED)) ∨
    g.append s = (g, .GROUP_INVALIDATED) := by
  unfold MiscGroup.append
  simp only [hg]
  cases hf : g.appendHailstoneFraction s with
  | none => exact Or.inr rfl
  | some g' =>
    left
    obtain ⟨q, hq, rfl⟩ := (hailFraction_iff g g' s n hn (by simp [hd])).mp hf
    exact ⟨q, hq, rfl⟩

/-- C62. A sequence of texts is taken for one group exactly if it is listed above, and the group has
the values written. -/
theorem C62_history (p : ReportPart) (ws : List Str) (g : MiscGroup) :
    taken (MiscGroup.parse · p) MiscGroup.append ws = some g ↔ MiscText p ws g := by
  constructor
  · induction ws using List.reverseRecOn generalizing g with
    | nil => intro h; cases h
    | append_singleton ws w ih =>
      intro h
      by_cases hne : ws = []
      · subst hne
        rw [List.nil_append, taken_one] at h
        exact (parse_misc w p g).mp h
      · obtain ⟨g0, h0, ha⟩ := (taken_snoc hne w g).mp h
        cases ih _ h0 with
        | colour => cases (Prod.mk.inj ha).2
        | correction => cases (Prod.mk.inj ha).2
        | issuerN => cases (Prod.mk.inj ha).2
        | issuerS => cases (Prod.mk.inj ha).2
        | sunshine => cases (Prod.mk.inj ha).2
        | frostOnInstrument => cases (Prod.mk.inj ha).2
        | densityMissing => cases (Prod.mk.inj ha).2
        | densityValue => cases (Prod.mk.inj ha).2
        | hailQuarters => cases (Prod.mk.inj ha).2
        | hailBoth => cases (Prod.mk.inj ha).2
        | density =>
          unfold MiscGroup.append at ha
          simp only at ha
          by_cases e : w = c!"ALT"
          · rw [if_pos e] at ha
            obtain rfl := (Prod.mk.inj ha).1
            subst e
            exact .densityAlt
          · rw [if_neg e] at ha
            cases (Prod.mk.inj ha).2
        | densityAlt =>
          unfold MiscGroup.append at ha
          simp only at ha
          by_cases e : w = c!"MISG"
          · rw [if_pos e] at ha
            obtain rfl := (Prod.mk.inj ha).1
            subst e
            exact .densityMissing
          rw [if_neg e] at ha
          cases hv : MiscGroup.appendDensityAltitude
              { groupType := .DENSITY_ALTITUDE, incompleteText := .DENSITY_ALT } w with
          | none =>
            simp only [hv] at ha
            cases (Prod.mk.inj ha).2
          | some g1 =>
            simp only [hv] at ha
            obtain rfl := (Prod.mk.inj ha).1
            obtain ⟨k, n, hk, hn, rfl, rfl⟩ := (densityValue_iff _ _ _).mp hv
            exact .densityValue hk hn
        | hail =>
          rcases append_hail { groupType := .HAILSTONE_SIZE, incompleteText := .GR } w rfl rfl with
            ⟨n, h1, h2, rfl, e⟩ | ⟨q, hq, e⟩ | e
          · rw [e] at ha
            obtain rfl := (Prod.mk.inj ha).1
            exact .hailInches h1 h2
          · rw [e] at ha
            obtain rfl := (Prod.mk.inj ha).1
            exact .hailQuarters hq
          · rw [e] at ha
            cases (Prod.mk.inj ha).2
        | @hailInches n h1 h2 =>
          have hcases := append_hailInt
            { groupType := .HAILSTONE_SIZE, groupData := some (n : Rat), incompleteText := .GR_INT }
            w n h2 rfl rfl
          rcases hcases with ⟨q, hq, e⟩ | e
          · rw [e] at ha
            obtain rfl := (Prod.mk.inj ha).1
            exact .hailBoth h1 h2 hq
          · rw [e] at ha
            cases (Prod.mk.inj ha).2
  · intro h
    have two : ∀ {a b : Str} {ga gb : MiscGroup}, MiscText p [a] ga → ga.append b = (gb, .APPENDED) →
        taken (MiscGroup.parse · p) MiscGroup.append [a, b] = some gb := by
      intro a b ga gb h1 h2
      exact (taken_snoc (ws := [a]) (by simp) b gb).mpr
        ⟨ga, by rw [taken_one]; exact (parse_misc _ _ _).mpr h1, h2⟩
    have inches : ∀ {n}, 1 ≤ n → n ≤ 9 → p = .RMK → taken (MiscGroup.parse · p) MiscGroup.append
        [c!"GR", decimal 1 n] = some { groupType := .HAILSTONE_SIZE, groupData := some (n : Rat), incompleteText := .GR_INT } := by
      intro n h1 h2 hp
      subst hp
      apply two .hail
      rcases append_hail { groupType := .HAILSTONE_SIZE, incompleteText := .GR } (decimal 1 n) rfl rfl with
        ⟨m, h3, h4, e, e'⟩ | ⟨q, hq, e⟩ | e
      · obtain rfl := decimal_inj (k := 1) (by omega) (by omega) e
        exact e'
      · exact absurd rfl (digit_not_quarter hq)
      · exfalso
        unfold MiscGroup.append at e
        simp only at e
        rw [if_pos ((hailDigit_iff _).mpr ⟨n, h1, h2, rfl⟩)] at e
        cases (Prod.mk.inj e).2
    cases h with
    | colour hp hw => rw [taken_one]; exact (parse_misc _ _ _).mpr (.colour hp hw)
    | correction h => rw [taken_one]; exact (parse_misc _ _ _).mpr (.correction h)
    | issuerN h => rw [taken_one]; exact (parse_misc _ _ _).mpr (.issuerN h)
    | issuerS h => rw [taken_one]; exact (parse_misc _ _ _).mpr (.issuerS h)
    | sunshine h => rw [taken_one]; exact (parse_misc _ _ _).mpr (.sunshine h)
    | frostOnInstrument => rw [taken_one]; exact (parse_misc _ _ _).mpr .frostOnInstrument
    | density => rw [taken_one]; exact (parse_misc _ _ _).mpr .density
    | hail => rw [taken_one]; exact (parse_misc _ _ _).mpr .hail
    | densityAlt => exact two .density rfl
    | densityMissing =>
      exact (taken_snoc (ws := [c!"DENSITY", c!"ALT"]) (by simp) _ _).mpr ⟨_, two .density rfl, rfl⟩
    | @densityValue k n hk hn =>
      refine (taken_snoc (ws := [c!"DENSITY", c!"ALT"]) (by simp) _ _).mpr ⟨_, two .density rfl, ?_⟩
      unfold MiscGroup.append
      simp only
      have hm : decimal k n ++ c!"FT" ≠ c!"MISG" := by
        intro e
        have := congrArg List.getLast? e
        simp at this
      rw [if_neg hm, (densityValue_iff _ _ _).mpr ⟨k, n, hk, hn, rfl, rfl⟩]
    | hailInches h1 h2 => exact inches h1 h2 rfl
    | @hailQuarters w q hq =>
      apply two .hail
      rcases append_hail { groupType := .HAILSTONE_SIZE, incompleteText := .GR } w rfl rfl with
        ⟨m, h3, h4, e, e'⟩ | ⟨q', hq', e⟩ | e
      · exact absurd e (digit_not_quarter hq)
      · have : q = q' := by
          simp only [quarterTexts, List.mem_cons, Prod.mk.injEq, List.not_mem_nil, or_false] at hq hq'
          rcases hq with ⟨rfl, rfl⟩ | ⟨rfl, rfl⟩ | ⟨rfl, rfl⟩ | ⟨rfl, rfl⟩ <;> simp at hq' <;> exact hq'.symm
        subst this
        exact e
      · exfalso
        unfold MiscGroup.append at e
        simp only at e
        rw [if_neg (by rw [hailDigit_iff]; rintro ⟨n, -, -, e⟩; exact digit_not_quarter hq e),
          (hailFraction_iff _ _ _ 0 (by omega) rfl).mpr ⟨q, hq, rfl⟩] at e
        cases (Prod.mk.inj e).2
    | @hailBoth n w q h1 h2 hq =>
      refine (taken_snoc (ws := [c!"GR", decimal 1 n]) (by simp) _ _).mpr ⟨_, inches h1 h2 rfl, ?_⟩
      unfold MiscGroup.append
      simp only
      rw [(hailFraction_iff _ _ _ n h2 rfl).mpr ⟨q, hq, rfl⟩]

/-- C62. A text that does not belong to the group leaves the group as it is. It makes the group
invalid exactly if the group is incomplete: density altitude without its value, or hailstones
without quarters of an inch. -/
theorem C62_rejected (g : MiscGroup) (s : Str) (h : (g.append s).2 ≠ .APPENDED) :
    (g.append s).1 = g ∧ ((g.append s).2 = .GROUP_INVALIDATED ↔ g.isValid = false) := by
  unfold MiscGroup.append at *
  unfold MiscGroup.isValid
  cases hi : g.incompleteText <;> simp only [hi] at *
  · simp
  · split
    · rename_i e; rw [if_pos e] at h; exact absurd rfl h
    · exact ⟨rfl, by simp⟩
  · split
    · rename_i e; rw [if_pos e] at h; exact absurd rfl h
    · split
      · rename_i e _ _ e2; rw [if_neg e, e2] at h; exact absurd rfl h
      · exact ⟨rfl, by simp⟩
  · split
    · rename_i e; rw [if_pos e] at h; exact absurd rfl h
    · split
      · rename_i e _ _ e2; rw [if_neg e, e2] at h; exact absurd rfl h
      · exact ⟨rfl, by simp⟩
  · split
    · rename_i e; rw [e] at h; exact absurd rfl h
    · exact ⟨rfl, by simp⟩

/-- C62. Density altitude below 2^24 feet is kept exactly. -/
theorem C62_density (k n : Nat) (hk : 0 < k) (hn : n < 10 ^ k) (h : n ≤ 2 ^ 24) :
    ∃ g, taken (MiscGroup.parse · .RMK) MiscGroup.append
        [c!"DENSITY", c!"ALT", decimal k n ++ c!"FT"] = some g ∧
      g = { groupType := .DENSITY_ALTITUDE, groupData := some (n : Rat) } := by
  refine ⟨_, (C62_history _ _ _).mpr (.densityValue hk hn), ?_⟩
  rw [Nat.mod_eq_of_lt (by omega), f32_nat h]

/-- C62. The value of a hailstone is never zero and at most 9 3/4 inches. -/
theorem C62_hail (p : ReportPart) (ws : List Str) (g : MiscGroup)
    (h : taken (MiscGroup.parse · p) MiscGroup.append ws = some g) (ht : g.groupType = .HAILSTONE_SIZE)
    (hv : g.isValid = true) : ∃ m : Nat, 1 ≤ m ∧ m ≤ 39 ∧ g.groupData = some ((m : Rat) / 4) := by
  have quarter : ∀ {w q}, (w, q) ∈ quarterTexts → 1 ≤ q ∧ q ≤ 3 := by
    intro w q hq
    simp only [quarterTexts, List.mem_cons, Prod.mk.injEq, List.not_mem_nil, or_false] at hq
    omega
  cases (C62_history p ws g).mp h with
  | colour hp hw =>
    exfalso
    simp only at ht
    subst ht
    simp [colourCodes] at hw
  | correction => cases ht
  | issuerN => cases ht
  | issuerS => cases ht
  | sunshine => cases ht
  | frostOnInstrument => cases ht
  | density => cases ht
  | densityAlt => cases ht
  | densityMissing => cases ht
  | densityValue => cases ht
  | hail => cases hv
  | hailInches => cases hv
  | hailQuarters hq =>
    have := quarter hq
    exact ⟨_, this.1, by omega, rfl⟩
  | @hailBoth n w q h1 h2 hq =>
    have := quarter hq
    refine ⟨4 * n + q, by omega, by omega, ?_⟩
    push_cast
    rw [show ((4 : Rat) * n + q) / 4 = n + q / 4 by ring]

example : MiscText .RMK [c!"GR", decimal 1 1, c!"3/4"]
    { groupType := .HAILSTONE_SIZE, groupData := some (((1 : Nat) : Rat) + ((3 : Nat) : Rat) / 4) } :=
  .hailBoth (by omega) (by omega) (by simp [quarterTexts])

end Metaf.Props

namespace Metaf.Props

attribute [local instance] exactFloat

example : taken (MiscGroup.parse · .RMK) MiscGroup.append [c!"GR", c!"1", c!"3/4"] =
      some { groupType := .HAILSTONE_SIZE, groupData := some (7 / 4) } ∧
    taken (MiscGroup.parse · .RMK) MiscGroup.append [c!"DENSITY", c!"ALT", c!"2500FT"] =
      some { groupType := .DENSITY_ALTITUDE, groupData := some 2500 } := by decide +kernel

end Metaf.Props
