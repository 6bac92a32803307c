import Verif.Model.Distance
import Verif.Proofs.Decimal
import Verif.Proofs.Float

/-!
Texts of distances and directions other than miles: visibility in metres and kilometres, heights,
runway visual range, layers, wind directions, cardinal directions (used by C46 to C48).
-/

namespace Metaf.Props

open Metaf.Spec

/-- C47. Visibility in metres: four digits, where 9999 means more than 10 km, or not reported. -/
theorem C47_meters (s : Str) (d : Distance) :
    Distance.fromMeterString s = some d ↔
      (s = c!"////" ∧ d = ⟨.NONE, none, .METERS⟩) ∨
      (s = c!"9999" ∧ d = ⟨.MORE_THAN, some 10000, .METERS⟩) ∨
      ∃ n < 9999, s = decimal 4 n ∧ d = ⟨.NONE, some n, .METERS⟩ := by
  constructor
  · intro h
    unfold Distance.fromMeterString at h
    split at h
    · simp at h
    · rename_i hl
      split at h
      · simp only [Option.some.injEq] at h
        exact Or.inl ⟨by assumption, h.symm⟩
      · split at h
        · simp at h
        · rename_i n hn
          rw [strToUint_whole (by omega) (by omega) (by simpa using hl)] at hn
          obtain ⟨hn, rfl⟩ := hn
          split at h
          · rename_i h9
            simp only [beq_iff_eq] at h9
            subst h9
            simp only [Option.some.injEq] at h
            exact Or.inr (Or.inl ⟨by decide, h.symm⟩)
          · rename_i h9
            simp only [beq_iff_eq] at h9
            simp only [Option.some.injEq] at h
            exact Or.inr (Or.inr ⟨n, by omega, rfl, h.symm⟩)
  · rintro (⟨rfl, rfl⟩ | ⟨rfl, rfl⟩ | ⟨n, hn, rfl, rfl⟩)
    · rfl
    · rfl
    · have h1 : Nat.digitChar (n / 10 / 10 / 10 % 10) ≠ '/' := digitChar_ne rfl (by omega)
      unfold Distance.fromMeterString
      rw [if_neg (by simp [decimal_length]), if_neg (by simp [decimal_four, h1]),
        strToUint_decimal (by omega) (by omega) (by omega)]
      simp only
      rw [if_neg (by simp; omega)]

/-- C47. Visibility in kilometres. -/
theorem C47_kilometers (s : Str) (d : Distance) :
    Distance.fromKmString s = some d ↔
      ∃ k n, (k = 1 ∨ k = 2) ∧ n < 10 ^ k ∧ s = decimal k n ++ c!"KM" ∧
        d = ⟨.NONE, some (1000 * n), .METERS⟩ := by
  constructor
  · intro h
    unfold Distance.fromKmString at h
    split at h
    · simp at h
    · rename_i hl
      have hl : s.length = 3 ∨ s.length = 4 := by simp at hl; omega
      simp only at h
      split at h
      · simp at h
      · rename_i hu
        split at h
        · simp at h
        · rename_i n hn
          have hu : s.drop (s.length - 2) = c!"KM" := by simpa using hu
          rw [strToUint_iff (by omega) (by omega)] at hn
          obtain ⟨-, hn, he⟩ := hn
          have hs : s = decimal (s.length - 2) n ++ c!"KM" := by
            rw [← he, ← hu, part, List.drop_zero, List.take_append_drop]
          simp only [Option.some.injEq] at h
          have : n < 10 ^ 2 := lt_of_lt_of_le hn (Nat.pow_le_pow_right (by omega) (by omega))
          refine ⟨s.length - 2, n, by omega, hn, hs, ?_⟩
          rw [← h]
          simp only [wrap, uintRange]
          rw [Nat.mod_eq_of_lt (by omega), Nat.mul_comm]
  · rintro ⟨k, n, hk, hn, rfl, rfl⟩
    have hl : (decimal k n ++ c!"KM").length = k + 2 := by simp [decimal_length]
    have : n < 10 ^ 2 := lt_of_lt_of_le hn (Nat.pow_le_pow_right (by omega) (by omega))
    unfold Distance.fromKmString
    rw [hl, if_neg (by simp; omega)]
    simp only [Nat.add_sub_cancel]
    rw [if_neg (by rw [List.drop_left' (decimal_length k n)]; simp),
      strToUint_append _ (by simp [decimal_length]), strToUint_decimal (by omega) (by omega) hn]
    simp only [wrap, uintRange]
    rw [Nat.mod_eq_of_lt (by omega), Nat.mul_comm]

/-- C47. Runway visual range: four digits, possibly with `P` or `M`, in metres or feet. -/
theorem C47_rvr (s : Str) (feet : Bool) (d : Distance) :
    Distance.fromRvrString s feet = some d ↔
      (s = c!"////" ∧ d = ⟨.NONE, none, if feet then .FEET else .METERS⟩) ∨
      ∃ n < 10000, d.dist = some n ∧ d.distUnit = (if feet then .FEET else .METERS) ∧
        (s = decimal 4 n ∧ d.distModifier = .NONE ∨
         s = 'P' :: decimal 4 n ∧ d.distModifier = .MORE_THAN ∨
         s = 'M' :: decimal 4 n ∧ d.distModifier = .LESS_THAN) := by
  constructor
  · intro h
    unfold Distance.fromRvrString at h
    simp only at h
    split at h
    · rename_i hl
      split at h
      · simp only [Option.some.injEq] at h
        exact Or.inl ⟨by assumption, h.symm⟩
      · split at h
        · simp at h
        · rename_i n hn
          rw [strToUint_whole (by omega) (by omega) (by simpa using hl)] at hn
          simp only [Option.some.injEq] at h
          subst h
          exact Or.inr ⟨n, by simpa using hn.1, rfl, rfl, Or.inl ⟨hn.2, rfl⟩⟩
    · split at h
      · rename_i hl
        obtain ⟨a, b, c, e, f, rfl⟩ := length_five (s := s) (by simpa using hl)
        split at h
        · simp at h
        · rename_i m hm
          split at h
          · simp at h
          · rename_i n hn
            rw [strToUint_cons _ _ 0, strToUint_whole (by omega) (by omega) (by rfl)] at hn
            simp only [Option.some.injEq] at h
            subst h
            refine Or.inr ⟨n, by simpa using hn.1, rfl, rfl, Or.inr ?_⟩
            simp only [ch, List.getD_cons_zero, Distance.modifierFromChar] at hm
            split at hm
            · rename_i ha
              simp only [Option.some.injEq] at hm
              exact Or.inr ⟨by rw [ha, hn.2], hm.symm⟩
            · split at hm
              · rename_i ha
                simp only [Option.some.injEq] at hm
                exact Or.inl ⟨by rw [ha, hn.2], hm.symm⟩
              · simp at hm
      · simp at h
  · obtain ⟨m, v, u⟩ := d
    rintro (⟨rfl, hd⟩ | ⟨n, hn, hv, hu, hs⟩)
    · rw [hd]; rfl
    · simp only at hv hu hs
      subst hv hu
      have h1 : Nat.digitChar (n / 10 / 10 / 10 % 10) ≠ '/' := digitChar_ne rfl (by omega)
      unfold Distance.fromRvrString
      rcases hs with ⟨rfl, rfl⟩ | ⟨rfl, rfl⟩ | ⟨rfl, rfl⟩
      · simp only
        rw [if_pos (by simp [decimal_length]), if_neg (by simp [decimal_four, h1]),
          strToUint_decimal (by omega) (by omega) (by omega)]
      · simp only
        rw [if_neg (by simp [decimal_length]), if_pos (by simp [decimal_length]),
          strToUint_cons _ _ 0, strToUint_decimal (by omega) (by omega) (by omega)]
        rfl
      · simp only
        rw [if_neg (by simp [decimal_length]), if_pos (by simp [decimal_length]),
          strToUint_cons _ _ 0, strToUint_decimal (by omega) (by omega) (by omega)]
        rfl

/-- C48. Heights: three digits in hundreds of feet, or not reported. -/
theorem C48_height (s : Str) (d : Distance) :
    Distance.fromHeightString s = some d ↔
      (s = c!"///" ∧ d = ⟨.NONE, none, .FEET⟩) ∨
      ∃ n < 1000, s = decimal 3 n ∧ d = ⟨.NONE, some (100 * n), .FEET⟩ := by
  constructor
  · intro h
    unfold Distance.fromHeightString at h
    split at h
    · simp at h
    · rename_i hl
      split at h
      · simp only [Option.some.injEq] at h
        exact Or.inl ⟨by assumption, h.symm⟩
      · split at h
        · simp at h
        · rename_i n hn
          rw [strToUint_whole (by omega) (by omega) (by simpa using hl)] at hn
          simp only [Option.some.injEq] at h
          refine Or.inr ⟨n, by simpa using hn.1, hn.2, ?_⟩
          rw [← h]
          have := hn.1
          simp only [wrap, uintRange]
          rw [Nat.mod_eq_of_lt (by omega), Nat.mul_comm]
  · rintro (⟨rfl, rfl⟩ | ⟨n, hn, rfl, rfl⟩)
    · rfl
    · have h1 : Nat.digitChar (n / 10 / 10 % 10) ≠ '/' := digitChar_ne rfl (by omega)
      unfold Distance.fromHeightString
      rw [if_neg (by simp [decimal_length]), if_neg (by simp [decimal_three, h1]),
        strToUint_decimal (by omega) (by omega) (by omega)]
      simp only [wrap, uintRange]
      rw [Nat.mod_eq_of_lt (by omega), Nat.mul_comm]

/-- C48. Layers of turbulence and icing: three digits of base height in hundreds of feet and one
digit of depth in thousands of feet. -/
theorem C48_layer (s : Str) (x y : Distance) :
    Distance.fromLayerString s = some (x, y) ↔
      ∃ n m, n < 1000 ∧ m < 10 ∧ s = decimal 3 n ++ decimal 1 m ∧
        x = ⟨.NONE, some (100 * n), .FEET⟩ ∧ y = ⟨.NONE, some (100 * n + 1000 * m), .FEET⟩ := by
  constructor
  · intro h
    unfold Distance.fromLayerString at h
    split at h
    · simp at h
    · rename_i hl
      obtain ⟨a, b, c, e, rfl⟩ := length_four (s := s) (by simpa using hl)
      split at h
      · simp at h
      · rename_i n hn
        split at h
        · simp at h
        · rename_i m hm
          rw [show [a, b, c, e] = [a, b, c] ++ [e] from rfl, strToUint_append _ (by simp),
            strToUint_whole (by omega) (by omega) (by rfl)] at hn
          rw [strToUint_cons _ _ 2, strToUint_cons _ _ 1, strToUint_cons _ _ 0,
            strToUint_whole (by omega) (by omega) (by rfl)] at hm
          have h1 := hn.1
          have h2 := hm.1
          simp only [Option.some.injEq, Prod.mk.injEq, wrap, uintRange] at h
          rw [Nat.mod_eq_of_lt (by omega), Nat.mod_eq_of_lt (by omega)] at h
          refine ⟨n, m, by omega, by omega, by rw [← hn.2, ← hm.2]; rfl, ?_, ?_⟩
          · rw [← h.1, Nat.mul_comm]
          · rw [← h.2, Nat.mul_comm, Nat.mul_comm m]
  · rintro ⟨n, m, hn, hm, rfl, rfl, rfl⟩
    have h1 : strToUint (decimal 3 n ++ decimal 1 m) 0 3 = some n := by
      rw [strToUint_append _ (by simp [decimal_length]), strToUint_decimal (by omega) (by omega) hn]
    have h2 : strToUint (decimal 3 n ++ decimal 1 m) 3 1 = some m := by
      simp only [decimal_three, List.cons_append, List.nil_append, strToUint_cons]
      exact strToUint_decimal (by omega) (by omega) (by omega)
    unfold Distance.fromLayerString
    rw [if_neg (by simp [decimal_length]), h1, h2]
    simp only [wrap, uintRange]
    rw [Nat.mod_eq_of_lt (by omega), Nat.mod_eq_of_lt (by omega), Nat.mul_comm n, Nat.mul_comm m]

/-- C46. Wind directions: degrees in steps of ten, variable or not reported. -/
theorem C46_degrees (s : Str) (d : Direction) :
    Direction.fromDegreesString s = some d ↔
      (s = c!"///" ∧ d = ⟨0, .NOT_REPORTED⟩) ∨ (s = c!"VRB" ∧ d = ⟨0, .VARIABLE⟩) ∨
      ∃ n < 100, s = decimal 3 (10 * n) ∧ d = ⟨10 * n, .VALUE_DEGREES⟩ := by
  constructor
  · intro h
    unfold Direction.fromDegreesString at h
    split at h
    · simp at h
    · rename_i hl
      split at h
      · simp only [Option.some.injEq] at h
        exact Or.inl ⟨by assumption, h.symm⟩
      · split at h
        · simp only [Option.some.injEq] at h
          exact Or.inr (Or.inl ⟨by assumption, h.symm⟩)
        · split at h
          · simp at h
          · rename_i h0
            split at h
            · simp at h
            · rename_i n hn
              rw [strToUint_whole (by omega) (by omega) (by simpa using hl)] at hn
              obtain ⟨hn, rfl⟩ := hn
              have h0 : Nat.digitChar (n % 10) = '0' := by simpa [ch, decimal_three] using h0
              have h1 : n % 10 = 0 := by
                have : n % 10 < 10 := Nat.mod_lt _ (by omega)
                generalize n % 10 = m at *
                interval_cases m <;> first | rfl | simp [Nat.digitChar] at h0
              simp only [Option.some.injEq] at h
              refine Or.inr (Or.inr ⟨n / 10, by omega, ?_, ?_⟩)
              · congr 1; omega
              · rw [← h]; congr 1; omega
  · rintro (⟨rfl, rfl⟩ | ⟨rfl, rfl⟩ | ⟨n, hn, rfl, rfl⟩)
    · rfl
    · rfl
    · have h1 : Nat.digitChar (10 * n / 10 / 10 % 10) ≠ '/' := digitChar_ne rfl (by omega)
      have h2 : Nat.digitChar (10 * n / 10 / 10 % 10) ≠ 'V' := digitChar_ne rfl (by omega)
      have h3 : ch (decimal 3 (10 * n)) 2 = '0' := by
        simp only [decimal_three, ch, List.getD_cons_succ, List.getD_cons_zero]
        rw [Nat.mul_mod_right]
        rfl
      unfold Direction.fromDegreesString
      rw [if_neg (by simp [decimal_length]), if_neg (by simp [decimal_three, h1]),
        if_neg (by simp [decimal_three, h2]), h3, if_neg (by simp),
        strToUint_decimal (by omega) (by omega) (by omega)]

/-- C46. Wind directions in text are valid exactly up to 360 degrees. -/
theorem C46_degrees_valid (s : Str) (d : Direction) (h : Direction.fromDegreesString s = some d) :
    d.isValid = true ↔ d.dirType ≠ .VALUE_DEGREES ∨ d.dirDegrees ≤ 360 := by
  rw [C46_degrees] at h
  rcases h with ⟨-, rfl⟩ | ⟨-, rfl⟩ | ⟨n, -, -, rfl⟩
  · simp [Direction.isValid, Direction.isValue]
  · simp [Direction.isValid, Direction.isValue]
  · simp [Direction.isValid, Direction.isValue]

/-- Names of the octants and their centres in degrees. -/
def octantNames : List (Str × Nat) :=
  [(c!"N", 360), (c!"NE", 45), (c!"E", 90), (c!"SE", 135), (c!"S", 180), (c!"SW", 225),
   (c!"W", 270), (c!"NW", 315)]

/-- C47. Cardinal directions in text: the eight octants, no direction, and where allowed overhead,
all quadrants and unknown. -/
theorem C47_cardinal (s : Str) (ohd unk : Bool) (d : Direction) :
    Direction.fromCardinalString s ohd unk = some d ↔
      (∃ n, (s, n) ∈ octantNames ∧ d = ⟨n, .VALUE_CARDINAL⟩) ∨
      (s = c!"NDV" ∧ d = ⟨0, .NDV⟩) ∨
      (ohd = true ∧ s = c!"OHD" ∧ d = ⟨0, .OVERHEAD⟩) ∨
      (ohd = true ∧ s = c!"ALQDS" ∧ d = ⟨0, .ALQDS⟩) ∨
      (unk = true ∧ s = c!"UNKNOWN" ∧ d = ⟨0, .UNKNOWN⟩) := by
  constructor
  · intro h
    by_cases hs : s ∈ octantNames.map Prod.fst
    · left
      simp only [octantNames, List.map_cons, List.map_nil, List.mem_cons, List.not_mem_nil,
        or_false] at hs
      rcases hs with rfl | rfl | rfl | rfl | rfl | rfl | rfl | rfl
      · have : Direction.fromCardinalString c!"N" ohd unk = some ⟨360, .VALUE_CARDINAL⟩ := by
          cases ohd <;> cases unk <;> decide
        exact ⟨360, by simp [octantNames], (Option.some.inj (this.symm.trans h)).symm⟩
      · have : Direction.fromCardinalString c!"NE" ohd unk = some ⟨45, .VALUE_CARDINAL⟩ := by
          cases ohd <;> cases unk <;> decide
        exact ⟨45, by simp [octantNames], (Option.some.inj (this.symm.trans h)).symm⟩
      · have : Direction.fromCardinalString c!"E" ohd unk = some ⟨90, .VALUE_CARDINAL⟩ := by
          cases ohd <;> cases unk <;> decide
        exact ⟨90, by simp [octantNames], (Option.some.inj (this.symm.trans h)).symm⟩
      · have : Direction.fromCardinalString c!"SE" ohd unk = some ⟨135, .VALUE_CARDINAL⟩ := by
          cases ohd <;> cases unk <;> decide
        exact ⟨135, by simp [octantNames], (Option.some.inj (this.symm.trans h)).symm⟩
      · have : Direction.fromCardinalString c!"S" ohd unk = some ⟨180, .VALUE_CARDINAL⟩ := by
          cases ohd <;> cases unk <;> decide
        exact ⟨180, by simp [octantNames], (Option.some.inj (this.symm.trans h)).symm⟩
      · have : Direction.fromCardinalString c!"SW" ohd unk = some ⟨225, .VALUE_CARDINAL⟩ := by
          cases ohd <;> cases unk <;> decide
        exact ⟨225, by simp [octantNames], (Option.some.inj (this.symm.trans h)).symm⟩
      · have : Direction.fromCardinalString c!"W" ohd unk = some ⟨270, .VALUE_CARDINAL⟩ := by
          cases ohd <;> cases unk <;> decide
        exact ⟨270, by simp [octantNames], (Option.some.inj (this.symm.trans h)).symm⟩
      · have : Direction.fromCardinalString c!"NW" ohd unk = some ⟨315, .VALUE_CARDINAL⟩ := by
          cases ohd <;> cases unk <;> decide
        exact ⟨315, by simp [octantNames], (Option.some.inj (this.symm.trans h)).symm⟩
    · right
      simp only [octantNames, List.map_cons, List.map_nil, List.mem_cons, List.not_mem_nil,
        or_false, not_or] at hs
      obtain ⟨h1, h2, h3, h4, h5, h6, h7, h8⟩ := hs
      unfold Direction.fromCardinalString at h
      rw [if_neg h1, if_neg h2, if_neg h3, if_neg h4, if_neg h5, if_neg h6, if_neg h7,
        if_neg h8] at h
      by_cases he : s.isEmpty = true
      · rw [if_pos he] at h; simp at h
      · rw [if_neg he] at h
        by_cases ha : s = c!"NDV"
        · rw [if_pos ha] at h
          exact Or.inl ⟨ha, (Option.some.inj h).symm⟩
        · rw [if_neg ha] at h
          by_cases hb : ohd = true ∧ s = c!"OHD"
          · rw [if_pos hb] at h
            exact Or.inr (Or.inl ⟨hb.1, hb.2, (Option.some.inj h).symm⟩)
          · rw [if_neg hb] at h
            by_cases hc : ohd = true ∧ s = c!"ALQDS"
            · rw [if_pos hc] at h
              exact Or.inr (Or.inr (Or.inl ⟨hc.1, hc.2, (Option.some.inj h).symm⟩))
            · rw [if_neg hc] at h
              by_cases hd : unk = true ∧ s = c!"UNKNOWN"
              · rw [if_pos hd] at h
                exact Or.inr (Or.inr (Or.inr ⟨hd.1, hd.2, (Option.some.inj h).symm⟩))
              · rw [if_neg hd] at h
                simp at h
  · rintro (⟨n, hn, rfl⟩ | ⟨rfl, rfl⟩ | ⟨rfl, rfl, rfl⟩ | ⟨rfl, rfl, rfl⟩ | ⟨rfl, rfl, rfl⟩)
    · simp only [octantNames, List.mem_cons, Prod.mk.injEq, List.not_mem_nil, or_false] at hn
      rcases hn with ⟨rfl, rfl⟩ | ⟨rfl, rfl⟩ | ⟨rfl, rfl⟩ | ⟨rfl, rfl⟩ | ⟨rfl, rfl⟩ | ⟨rfl, rfl⟩ |
        ⟨rfl, rfl⟩ | ⟨rfl, rfl⟩ <;> (cases ohd <;> cases unk <;> decide)
    · rfl
    · cases unk <;> decide
    · cases unk <;> decide
    · cases ohd <;> decide

example : Distance.fromMeterString c!"0350" = some ⟨.NONE, some 350, .METERS⟩ ∧
    Distance.fromKmString c!"10KM" = some ⟨.NONE, some 10000, .METERS⟩ ∧
    Distance.fromRvrString c!"P2000" true = some ⟨.MORE_THAN, some 2000, .FEET⟩ ∧
    Distance.fromHeightString c!"025" = some ⟨.NONE, some 2500, .FEET⟩ ∧
    Distance.fromLayerString c!"0504" =
      some (⟨.NONE, some 5000, .FEET⟩, ⟨.NONE, some 9000, .FEET⟩) ∧
    Direction.fromDegreesString c!"240" = some ⟨240, .VALUE_DEGREES⟩ ∧
    Direction.fromDegreesString c!"245" = none ∧
    Direction.fromCardinalString c!"SW" = some ⟨225, .VALUE_CARDINAL⟩ ∧
    Direction.fromCardinalString c!"OHD" = none := by decide +kernel

end Metaf.Props
