import Verif.Props.SummaryMembers

/-!
C96: the speeds, temperatures and visibility of the summary of the current weather are the whole part of
the true value, not only near it: the rounding of `float` arithmetic never moves a value to the next whole
number. C97: this does not hold for pressure in hundredths of an inch.
-/

set_option linter.unusedSectionVars false

namespace Metaf.Props

open Metaf Metaf.Spec Metaf.Summary

variable [FloatIeee]

/-! ### Rounding -/

/-- A number very near a whole number is rounded to it. -/
theorem f32_snap {x : Rat} {k : Int} {e : Nat} (hk : 2 ^ e ≤ |k|) (hk' : |k| ≤ 2 ^ 24)
    (h : |x - k| < 2 ^ e / 2 ^ 25) : f32 x = k := by
  have hi : f32 (k : Rat) = k := FloatSem.f32_int k hk'
  have he : e ≤ 24 := by
    by_contra hc
    have : (2 : Int) ^ 25 ≤ 2 ^ e := pow_le_pow_right₀ (by norm_num) (by omega)
    have : (2 : Int) ^ 25 ≤ 2 ^ 24 := le_trans this (le_trans hk hk')
    norm_num at this
  have hn := FloatIeee.f32_nearest x k
  rw [hi, abs_sub_comm (k : Rat) x] at hn
  have hd : |f32 x - k| < 2 ^ e / 2 ^ 24 := by
    have : |f32 x - k| ≤ |f32 x - x| + |x - k| := by
      have := abs_add_le (f32 x - x) (x - k)
      rwa [sub_add_sub_cancel] at this
    have e2 : (2 : Rat) ^ e / 2 ^ 24 = 2 ^ e / 2 ^ 25 + 2 ^ e / 2 ^ 25 := by ring
    linarith
  have hk2 : (2 : Rat) ^ e ≤ |(k : Rat)| := by exact_mod_cast hk
  have hp : (0 : Rat) < 2 ^ e := by positivity
  have hb : (2 : Rat) ^ ((e : Int) - 1) ≤ |f32 x| := by
    have h1 : |(k : Rat)| ≤ |f32 x - k| + |f32 x| := by
      have := abs_sub (f32 x) (f32 x - k)
      rw [sub_sub_cancel] at this
      linarith
    rw [zpow_sub₀ (by norm_num), zpow_natCast, zpow_one]
    have h2 : (2 : Rat) ^ e / 2 ^ 24 ≤ 2 ^ e / 2 := by
      apply div_le_div_of_nonneg_left hp.le (by norm_num) (by norm_num)
    linarith
  obtain ⟨j, hj⟩ := FloatIeee.f32_grid x _ hb
  have hg : (k : Rat) = ((k * 2 ^ (24 - e) : Int) : Rat) * 2 ^ ((e : Int) - 1 - 23) := by
    push_cast
    rw [mul_assoc, ← zpow_natCast, ← zpow_add₀ (by norm_num)]
    rw [show ((24 - e : Nat) : Int) + ((e : Int) - 1 - 23) = 0 by omega, zpow_zero, mul_one]
  have hpos : (0 : Rat) < 2 ^ ((e : Int) - 1 - 23) := zpow_pos (by norm_num) _
  have hunit : (2 : Rat) ^ ((e : Int) - 1 - 23) = 2 ^ e / 2 ^ 24 := by
    rw [show ((e : Int) - 1 - 23) = (e : Int) - (24 : Nat) by omega, zpow_sub₀ (by norm_num), zpow_natCast,
      zpow_natCast]
  have hj' : j = k * 2 ^ (24 - e) := by
    rw [hj] at hd
    rw [hg, ← sub_mul, abs_mul, abs_of_pos hpos, hunit] at hd
    have : |((j : Rat) - ((k * 2 ^ (24 - e) : Int) : Rat))| < 1 := by
      by_contra hc
      push Not at hc
      have := mul_le_mul_of_nonneg_right hc (show (0 : Rat) ≤ 2 ^ e / 2 ^ 24 by positivity)
      linarith
    have : |j - k * 2 ^ (24 - e)| < 1 := by exact_mod_cast this
    have := Int.abs_lt_one_iff.mp this
    omega
  rw [hj, hj', ← hg]

/-! ### The whole part -/

theorem part_int (k : Int) : integerPart (k : Rat) = k := by
  simp [integerPart]

/-- The whole part of a number near a fraction which is not a whole number. -/
theorem part_near {q : Rat} {a b : Int} (hb : 0 < b) (hn : ¬ b ∣ a) (h : |q - (a : Rat) / b| < 1 / b) :
    integerPart q = a.tdiv b := by
  have hb' : (0 : Rat) < b := by exact_mod_cast hb
  have key : ∀ (p : Rat) (c : Int), 0 ≤ c → ¬ b ∣ c → |p - (c : Rat) / b| < 1 / b → ⌊p⌋ = c / b ∧ 0 < p := by
    intro p c hc hn h
    have h' := abs_lt.mp h
    have e1 := Int.emod_add_mul_ediv c b
    have e2 := Int.emod_nonneg c hb.ne'
    have e3 := Int.emod_lt_of_pos c hb
    have e4 : c % b ≠ 0 := fun h => hn (Int.dvd_of_emod_eq_zero h)
    have f1 : ((c / b : Int) : Rat) + 1 / b ≤ (c : Rat) / b := by
      rw [le_div_iff₀ hb', add_mul, one_div_mul_cancel hb'.ne']
      have : (c / b) * b + 1 ≤ c := by rw [mul_comm]; omega
      exact_mod_cast this
    have f2 : (c : Rat) / b ≤ ((c / b : Int) : Rat) + 1 - 1 / b := by
      rw [div_le_iff₀ hb', sub_mul, add_mul, one_div_mul_cancel hb'.ne', one_mul]
      have : c ≤ (c / b) * b + b - 1 := by rw [mul_comm]; omega
      exact_mod_cast this
    have f3 : (0 : Rat) ≤ ((c / b : Int) : Rat) := by exact_mod_cast Int.ediv_nonneg hc hb.le
    refine ⟨?_, by linarith⟩
    rw [Int.floor_eq_iff]
    constructor <;> linarith
  rw [← trunc_eq]
  rcases le_or_gt 0 a with ha | ha
  · obtain ⟨k1, k2⟩ := key q a ha hn h
    rw [if_neg (by linarith), show q.floor = ⌊q⌋ from rfl, k1, Int.tdiv_eq_ediv_of_nonneg ha]
  · obtain ⟨k1, k2⟩ := key (-q) (-a) (by omega) (by rwa [Int.dvd_neg]) (by
      push_cast
      rw [neg_div, ← neg_sub', abs_neg]
      exact h)
    rw [if_pos (by linarith), show (-q).floor = ⌊-q⌋ from rfl, k1]
    have := Int.neg_tdiv (-a) b
    rw [neg_neg, Int.tdiv_eq_ediv_of_nonneg (by omega : 0 ≤ -a)] at this
    exact this.symm

/-! ### Temperature -/

theorem celsius_exact {n k : Int} (hk : n = 10 * k) (hn : |n| ≤ 1000) :
    f32 ((n : Rat) * Temperature.preciseValuePrecision) = k := by
  subst hk
  exact whole_exact (by rw [abs_le] at hn ⊢; omega)

/-- C96: temperature in degrees Celsius, the fraction dropped. -/
theorem C96_celsius {t : Temperature} {n : Int} (h : tenths t = some n) (hn : |n| ≤ 1000) :
    temperatureIn false t = some (n.tdiv 10) := by
  simp only [temperatureIn, Bool.false_eq_true, if_false, temperature_eq h hn, Option.map_some]
  congr 1
  by_cases hd : (10 : Int) ∣ n
  · obtain ⟨k, hk⟩ := hd
    rw [celsius_exact hk hn, part_int, hk, Int.mul_tdiv_cancel_left _ (by norm_num)]
  · exact part_near (by norm_num) hd (lt_of_le_of_lt (by push_cast; exact value_near hn) (by norm_num))

/-- C96: temperature in degrees Fahrenheit, the fraction dropped. -/
theorem C96_fahrenheit {t : Temperature} {n : Int} (h : tenths t = some n) (hn : |n| ≤ 1000) :
    temperatureIn true t = some ((9 * n + 1600).tdiv 50) := by
  by_cases hd : (50 : Int) ∣ n
  · obtain ⟨j, hj⟩ := hd
    have hc := temperature_eq h hn
    have hj' : |j| ≤ 20 := by rw [abs_le] at hn ⊢; omega
    rw [celsius_exact (k := 5 * j) (by omega) hn] at hc
    have e : t.toUnit .F = some (f32 (f64 (f64 (((5 * j : Int) : Rat) * f64 (18 / 10)) + 32))) := by
      unfold Temperature.toUnit at hc ⊢
      cases ht : t.temperature with
      | none => rw [ht] at hc; cases hc
      | some x =>
        rw [ht] at hc
        obtain rfl := Option.some.inj hc
        rfl
    have hj2 : |(j : Rat)| ≤ 20 := by exact_mod_cast hj'
    have k := f64_near (x := 18 / 10) (y := 9 / 5) (e := 0) 2 (by norm_num) (by norm_num [abs_le]) (by norm_num)
    have m := mul_near (near_self (((5 * j : Int) : Rat))) k (M := 100) (L := 2) (by
      push_cast; rw [abs_mul]; norm_num; linarith) (by norm_num [abs_le])
    have e1 : ((5 * j : Int) : Rat) * (9 / 5) = 9 * j := by push_cast; ring
    rw [e1] at m
    have m' := f64_near 180 m (by rw [abs_mul]; norm_num; linarith) (by norm_num)
    have a := add_near m' (near_self 32)
    have a' := f64_near 212 a (le_trans (abs_add_le _ _) (by rw [abs_mul]; norm_num; linarith)) (by norm_num)
    have s : f32 (f64 (f64 (((5 * j : Int) : Rat) * f64 (18 / 10)) + 32)) = ((9 * j + 32 : Int) : Rat) := by
      generalize f64 (f64 (((5 * j : Int) : Rat) * f64 (18 / 10)) + 32) = x at a' ⊢
      refine f32_snap (e := 0) ?_ ?_ (lt_of_le_of_lt (by push_cast; exact a') (by norm_num))
      · have : 9 * j + 32 ≠ 0 := by omega
        have := Int.one_le_abs this
        simpa using this
      · rw [abs_le] at hj' ⊢
        norm_num
        omega
    simp only [temperatureIn, if_true, e, Option.map_some, s, part_int]
    rw [hj, show (9 * (50 * j) + 1600 : Int) = 50 * (9 * j + 32) by ring,
      Int.mul_tdiv_cancel_left _ (by norm_num)]
  · obtain ⟨q, hq, hw⟩ := fahrenheit_near h hn
    simp only [temperatureIn, if_true, hq, Option.map_some]
    congr 1
    refine part_near (by norm_num) (by omega) (lt_of_le_of_lt (le_of_eq ?_) (lt_of_le_of_lt hw (by norm_num)))
    congr 1
    push_cast
    ring

/-! ### Speed -/

theorem part_floor {q T : Rat} {k : Nat} (h1 : (k : Rat) ≤ q) (h2 : q < k + 1) (h3 : (k : Rat) ≤ T)
    (h4 : T < k + 1) : integerPart q = ⌊T⌋ := by
  rw [part_eq h1 h2]
  exact (Int.floor_eq_iff.mpr ⟨by exact_mod_cast h3, by exact_mod_cast h4⟩).symm

theorem mulLit_exact {n K : Nat} {k : Rat} (hn : n ≤ 1000) (hk : 0 ≤ k) (hk' : k ≤ 10) (h : (n : Rat) * k = K)
    (h0 : K ≠ 0) : Speed.mulLit n k = K := by
  have hn' : (n : Rat) ≤ 1000 := by exact_mod_cast hn
  have hn0 : (0 : Rat) ≤ n := by positivity
  have c := f64_near (x := k) 10 (near_self k) (by rw [abs_of_nonneg hk]; exact hk') (by norm_num)
  have m := mul_near (near_self (n : Rat)) c (M := 1000) (L := 10) (by rw [abs_of_nonneg hn0]; exact hn')
    (by rw [abs_of_nonneg hk]; exact hk')
  rw [h] at m
  have hK : (K : Rat) ≤ 10000 := by
    rw [← h]
    have := mul_le_mul hn' hk' hk (by norm_num)
    linarith
  have m' := f64_near 10000 m (by rw [abs_of_nonneg (by positivity)]; exact hK) (by norm_num)
  unfold Speed.mulLit
  generalize f64 ((n : Rat) * f64 k) = x at m' ⊢
  have := f32_snap (x := x) (k := (K : Int)) (e := 0) (by
    rw [abs_of_nonneg (by positivity)]; have := Nat.pos_of_ne_zero h0; simp; omega) (by
    rw [abs_of_nonneg (by positivity)]
    have : K ≤ 10000 := by exact_mod_cast hK
    norm_num
    omega) (lt_of_le_of_lt (by push_cast; exact m') (by norm_num))
  simpa using this

/-- The product with a literal, where the literal is so near the true ratio of the units and the product so
far from whole numbers that it has the whole part of the true value. -/
theorem mulLit_floor {n L A B E : Nat} (hn : n < 1000) (hL : 10 ^ 4 ≤ L) (hL' : L ≤ 10 ^ 7) (hB : 0 < B)
    (hE : n * L ≤ (E - 1) * 2 ^ 22) (hE0 : 1 < E)
    (h : n = 0 ∨ (n * A / B * 10 ^ 6 + E ≤ n * L ∧ n * L + E < (n * A / B + 1) * 10 ^ 6)) :
    integerPart (Speed.mulLit n ((L : Rat) / 10 ^ 6)) = ⌊(n : Rat) * ((A : Rat) / B)⌋ := by
  have hB' : (0 : Rat) < B := by exact_mod_cast hB
  rcases h with rfl | ⟨h1, h2⟩
  · have : Speed.mulLit ((0 : Nat) : Rat) ((L : Rat) / 10 ^ 6) = 0 := by
      simp only [Speed.mulLit, Nat.cast_zero, zero_mul]
      rw [show f64 (0 : Rat) = 0 by simpa using f64_nat (n := 0) (by norm_num)]
      simpa using f32_nat (n := 0) (by norm_num)
    rw [this]
    simp [integerPart]
  · have hl : (10 ^ 4 : Rat) ≤ L := by exact_mod_cast hL
    have hl' : (L : Rat) ≤ 10 ^ 7 := by exact_mod_cast hL'
    have hn' : (n : Rat) ≤ 1000 := by exact_mod_cast hn.le
    have hn0 : (0 : Rat) ≤ n := by positivity
    have k := mulLit_near (v := n) (k := (L : Rat) / 10 ^ 6) hn0 (le_trans hn' (by norm_num))
      (by rw [le_div_iff₀ (by norm_num)]; linarith) (by rw [div_le_iff₀ (by norm_num)]; linarith)
    have k := abs_le.mp k
    have g1 : ((n * A / B : Nat) : Rat) * 10 ^ 6 + E ≤ n * L := by exact_mod_cast h1
    have g2 : (n : Rat) * L + E < ((n * A / B : Nat) + 1) * 10 ^ 6 := by exact_mod_cast h2
    have g3 : (n : Rat) * L ≤ (E - 1) * 2 ^ 22 := by
      have : ((n * L : Nat) : Rat) ≤ (((E - 1) * 2 ^ 22 : Nat) : Rat) := by exact_mod_cast hE
      push_cast [Nat.cast_sub hE0.le] at this
      exact this
    have g4 : (n : Rat) * ((L : Rat) / 10 ^ 6) = n * L / 10 ^ 6 := by ring
    rw [g4] at k
    have g5 : (n : Rat) * L / 10 ^ 6 / 2 ^ 22 ≤ (E - 1) / 10 ^ 6 := by
      rw [div_le_div_iff₀ (by norm_num) (by norm_num), div_mul_cancel₀ _ (by norm_num)]
      linarith
    have g6 : (1 : Rat) / 2 ^ 90 ≤ 1 / 10 ^ 6 := by norm_num
    have g7 : (E : Rat) / 10 ^ 6 = (E - 1) / 10 ^ 6 + 1 / 10 ^ 6 := by ring
    have d1 := Nat.div_add_mod (n * A) B
    have d2 := Nat.mod_lt (n * A) hB
    refine part_floor (k := n * A / B) ?_ ?_ ?_ ?_
    · have : ((n * A / B : Nat) : Rat) ≤ (n * L - E) / 10 ^ 6 := by rw [le_div_iff₀ (by norm_num)]; linarith
      rw [sub_div] at this
      linarith [k.1]
    · have : (n * L + E) / 10 ^ 6 < ((n * A / B : Nat) : Rat) + 1 := by rw [div_lt_iff₀ (by norm_num)]; linarith
      rw [add_div] at this
      linarith [k.2]
    · rw [← mul_div_assoc, le_div_iff₀ hB']
      have : n * A / B * B ≤ n * A := Nat.div_mul_le_self _ _
      exact_mod_cast this
    · rw [← mul_div_assoc, div_lt_iff₀ hB']
      have : n * A < (n * A / B + 1) * B := by rw [add_mul, mul_comm (n * A / B)]; omega
      exact_mod_cast this

theorem own_floor (n : Nat) (hn : n ≤ 2 ^ 24) : integerPart (f32 (n : Rat)) = n := by
  rw [f32_nat hn]
  exact part_int n

/-- The distance of speeds in miles and kilometres per hour from whole numbers, for all speeds a report can
hold. -/
theorem speeds_checked : ∀ n < 1000, n = 0 ∨
    ((n * 1852000 / 1609344 * 10 ^ 6 + 300 ≤ n * 1150779 ∧ n * 1150779 + 300 < (n * 1852000 / 1609344 + 1) * 10 ^ 6) ∧
    (n * 3600000 / 1609344 * 10 ^ 6 + 540 ≤ n * 2236936 ∧ n * 2236936 + 540 < (n * 3600000 / 1609344 + 1) * 10 ^ 6) ∧
    (n * 1000000 / 1609344 * 10 ^ 6 + 200 ≤ n * 621371 ∧ n * 621371 + 200 < (n * 1000000 / 1609344 + 1) * 10 ^ 6) ∧
    (n * 1609344 / 1000000 * 10 ^ 6 + 400 ≤ n * 1609344 ∧ n * 1609344 + 400 < (n * 1609344 / 1000000 + 1) * 10 ^ 6) ∧
    (n % 250 = 0 ∨ n * 1852 / 1000 * 10 ^ 6 + 450 ≤ n * 1852000 ∧ n * 1852000 + 450 < (n * 1852 / 1000 + 1) * 10 ^ 6) ∧
    (n % 5 = 0 ∨ n * 36 / 10 * 10 ^ 6 + 900 ≤ n * 3600000 ∧ n * 3600000 + 900 < (n * 36 / 10 + 1) * 10 ^ 6)) := by
  decide +kernel

/-- C96: a speed is given as the whole part of the true value. -/
theorem C96_speed {s : Speed} {n : Nat} (h : s.speedValue = some n) (hn : n < 1000) (imperial : Bool) :
    speedIn imperial s = some ⌊(n : Rat) * (mpsPer s.speedUnit /
      mpsPer (if imperial then .MILES_PER_HOUR else .KILOMETERS_PER_HOUR))⌋ := by
  obtain ⟨v, u⟩ := s
  simp only at h
  subst h
  have hc := speeds_checked n hn
  have fl : f32 (n : Rat) = n := f32_nat (by omega)
  have own : ∀ a : Rat, a ≠ 0 → (n : Int) = ⌊(n : Rat) * (a / a)⌋ := by
    intro a ha
    rw [div_self ha, mul_one, Int.floor_natCast]
  have up : ∀ {P Q : Prop}, (n = 0 ∨ P) → (P → Q) → n = 0 ∨ Q := fun h f => h.imp_right f
  have exact_case : ∀ (K : Nat) (k T : Rat), 0 < k → k ≤ 10 → (n : Rat) * k = K → T = n * k →
      integerPart (Speed.mulLit n k) = ⌊T⌋ := by
    intro K k T h0 h1 h2 h3
    by_cases hK : K = 0
    · subst hK
      have h2' : (n : Rat) * k = 0 := by simpa using h2
      rcases mul_eq_zero.mp h2' with hz | hz
      · have : n = 0 := by exact_mod_cast hz
        subst this
        have : Speed.mulLit ((0 : Nat) : Rat) k = 0 := by
          simp only [Speed.mulLit, Nat.cast_zero, zero_mul]
          rw [show f64 (0 : Rat) = 0 by simpa using f64_nat (n := 0) (by norm_num)]
          simpa using f32_nat (n := 0) (by norm_num)
        rw [this, h3]
        simp [integerPart]
      · exact absurd hz h0.ne'
    · rw [mulLit_exact (by omega) h0.le h1 h2 hK, h3, h2, Int.floor_natCast]
      exact part_int K
  cases u <;> cases imperial <;>
    simp only [speedIn, Speed.toUnit, Speed.knotsToUnit, Speed.mpsToUnit, Speed.kmhToUnit, Speed.mphToUnit,
      Bool.false_eq_true, if_false, if_true, Option.map_some, mpsPer, fl] <;> congr 1
  · by_cases h5 : n % 250 = 0
    · refine exact_case (n / 250 * 463) _ _ (by norm_num) (by norm_num) ?_ (by norm_num)
      have : (n : Rat) = ((n / 250 : Nat) : Rat) * 250 := by
        have : n = n / 250 * 250 := by omega
        exact_mod_cast this
      push_cast
      rw [this]
      ring
    · have := mulLit_floor (L := 1852000) (A := 1852) (B := 1000) (E := 450) hn (by norm_num) (by norm_num)
        (by norm_num) (by omega) (by norm_num) (up hc fun h => h.2.2.2.2.1.resolve_left h5)
      norm_num at this ⊢
      exact this
  · have := mulLit_floor (L := 1150779) (A := 1852000) (B := 1609344) (E := 300) hn (by norm_num) (by norm_num)
      (by norm_num) (by omega) (by norm_num) (up hc fun h => h.1)
    norm_num at this ⊢
    exact this
  · by_cases h5 : n % 5 = 0
    · refine exact_case (n / 5 * 18) _ _ (by norm_num) (by norm_num) ?_ (by norm_num)
      have : (n : Rat) = ((n / 5 : Nat) : Rat) * 5 := by
        have : n = n / 5 * 5 := by omega
        exact_mod_cast this
      push_cast
      rw [this]
      ring
    · have := mulLit_floor (L := 3600000) (A := 36) (B := 10) (E := 900) hn (by norm_num) (by norm_num)
        (by norm_num) (by omega) (by norm_num) (up hc fun h => h.2.2.2.2.2.resolve_left h5)
      norm_num at this ⊢
      exact this
  · have := mulLit_floor (L := 2236936) (A := 3600000) (B := 1609344) (E := 540) hn (by norm_num) (by norm_num)
      (by norm_num) (by omega) (by norm_num) (up hc fun h => h.2.1)
    norm_num at this ⊢
    exact this
  · exact (part_int n).trans (own _ (by norm_num))
  · have := mulLit_floor (L := 621371) (A := 1000000) (B := 1609344) (E := 200) hn (by norm_num) (by norm_num)
      (by norm_num) (by omega) (by norm_num) (up hc fun h => h.2.2.1)
    norm_num at this ⊢
    exact this
  · have := mulLit_floor (L := 1609344) (A := 1609344) (B := 1000000) (E := 400) hn (by norm_num) (by norm_num)
      (by norm_num) (by omega) (by norm_num) (up hc fun h => h.2.2.2.1)
    norm_num at this ⊢
    exact this
  · exact (part_int n).trans (own _ (by norm_num))

/-! ### Visibility -/

/-- C96: visibility in metres is given as it is. -/
theorem C96_metres {d : Distance} {n : Nat} (h : d.dist = some n) (hn : n ≤ 10000) (hu : d.distUnit = .METERS) :
    distanceIn false d = some (n : Int) := by
  obtain ⟨m, v, u⟩ := d
  simp only at h hu
  subst h hu
  show some (integerPart (f32 (n : Rat))) = _
  rw [own_floor n (by omega)]

/-- C96: visibility in miles is given as whole miles. -/
theorem C96_miles {d : Distance} {n : Nat} (h : d.dist = some n) (hn : n ≤ 2000000)
    (hu : d.distUnit = .STATUTE_MILES) : distanceIn true d = some ⌊(n : Rat) / 10000⌋ := by
  obtain ⟨m, v, u⟩ := d
  simp only at h hu
  subst h hu
  show some (integerPart (f32 (f32 (n : Rat) / 10000))) = _
  rw [f32_nat (by omega)]
  have hn' : (n : Rat) ≤ 2000000 := by exact_mod_cast hn
  have hn0 : (0 : Rat) ≤ n := by positivity
  congr 1
  by_cases hd : n % 10000 = 0
  · have e : (n : Rat) / 10000 = ((n / 10000 : Nat) : Rat) := by
      rw [div_eq_iff (by norm_num)]
      have : n = n / 10000 * 10000 := by omega
      exact_mod_cast this
    rw [e, Int.floor_natCast]
    exact own_floor _ (by omega)
  · have k := f32_near (x := (n : Rat) / 10000) 200 (near_self _)
      (by rw [abs_of_nonneg (by positivity), div_le_iff₀ (by norm_num)]; linarith) (by norm_num)
    have e := part_near (q := f32 ((n : Rat) / 10000)) (a := n) (b := 10000) (by norm_num)
      (by omega) (lt_of_le_of_lt (by push_cast; exact k) (by norm_num))
    rw [e, Int.tdiv_eq_ediv_of_nonneg (by positivity)]
    have := Rat.floor_intCast_div_natCast (n : Int) 10000
    push_cast at this
    exact this.symm

/-- The distance of lengths in miles from whole numbers, for all numbers of metres a report can hold. -/
theorem metres_checked : ∀ n < 10001, n = 0 ∨
    ((n * 1000 / 1609344 * 10 ^ 5 + 1) * 1609347 ≤ n * 10 ^ 8 ∧
    n * 10 ^ 8 ≤ (n * 1000 / 1609344 * 10 ^ 5 + 99999) * 1609347) := by
  intro n hn
  have h1 := Nat.div_add_mod (n * 1000) 1609344
  have h2 := Nat.mod_lt (n * 1000) (show 1609344 > 0 by norm_num)
  generalize n * 1000 / 1609344 = j at *
  have : j ≤ 6 := by omega
  interval_cases j <;> omega

/-- C96: visibility in metres is given as whole miles. -/
theorem C96_metres_to_miles {d : Distance} {n : Nat} (h : d.dist = some n) (hn : n ≤ 10000)
    (hu : d.distUnit = .METERS) :
    distanceIn true d = some ⌊(n : Rat) / (1609344 / 1000)⌋ := by
  obtain ⟨m, v, u⟩ := d
  simp only at h hu
  subst h hu
  show some (integerPart (Speed.divLit (f32 (n : Rat)) (1609347 / 1000))) = _
  rw [f32_nat (by omega)]
  have hn' : (n : Rat) ≤ 10000 := by exact_mod_cast hn
  have hn0 : (0 : Rat) ≤ n := by positivity
  congr 1
  rcases metres_checked n (by omega) with rfl | ⟨h1, h2⟩
  · have : Speed.divLit ((0 : Nat) : Rat) (1609347 / 1000) = 0 := by
      simp only [Speed.divLit, Nat.cast_zero, zero_div]
      rw [show f64 (0 : Rat) = 0 by simpa using f64_nat (n := 0) (by norm_num)]
      simpa using f32_nat (n := 0) (by norm_num)
    rw [this]
    simp [integerPart]
  · have k := abs_le.mp (divLit_near (v := n) (k := 1609347 / 1000) hn0 (le_trans hn' (by norm_num)) (by norm_num)
      (by norm_num))
    have g1 : (((n * 1000 / 1609344 : Nat) : Rat) * 10 ^ 5 + 1) * 1609347 ≤ n * 10 ^ 8 := by exact_mod_cast h1
    have g2 : (n : Rat) * 10 ^ 8 ≤ (((n * 1000 / 1609344 : Nat) : Rat) * 10 ^ 5 + 99999) * 1609347 := by
      exact_mod_cast h2
    have d1 := Nat.div_add_mod (n * 1000) 1609344
    have d2 := Nat.mod_lt (n * 1000) (show 1609344 > 0 by norm_num)
    have d3 : ((1609344 * (n * 1000 / 1609344 : Nat) : Nat) : Rat) ≤ ((n * 1000 : Nat) : Rat) := by
      exact_mod_cast (by omega : 1609344 * (n * 1000 / 1609344) ≤ n * 1000)
    have d4 : ((n * 1000 : Nat) : Rat) < ((1609344 * (n * 1000 / 1609344 : Nat) + 1609344 : Nat) : Rat) := by
      exact_mod_cast (by omega : n * 1000 < 1609344 * (n * 1000 / 1609344) + 1609344)
    push_cast at d3 d4
    generalize ((n * 1000 / 1609344 : Nat)) = j at *
    have e : (n : Rat) / (1609347 / 1000) = n * 1000 / 1609347 := by ring
    rw [e] at k
    have e' : (n : Rat) / (1609344 / 1000) = n * 1000 / 1609344 := by ring
    rw [e']
    have b1 : (j : Rat) + 1 / 10 ^ 5 ≤ n * 1000 / 1609347 := by rw [le_div_iff₀ (by norm_num)]; linarith
    have b2 : (n : Rat) * 1000 / 1609347 ≤ j + 99999 / 10 ^ 5 := by rw [div_le_iff₀ (by norm_num)]; linarith
    have b3 : (n : Rat) * 1000 / 1609347 / 2 ^ 22 + 1 / 2 ^ 90 ≤ 1 / 10 ^ 5 - 1 / 10 ^ 6 := by
      have : (n : Rat) * 1000 / 1609347 ≤ 7 := by rw [div_le_iff₀ (by norm_num)]; linarith
      norm_num at this ⊢
      linarith
    refine part_floor (k := j) ?_ ?_ ?_ ?_
    · norm_num at *; linarith [k.1]
    · norm_num at *; linarith [k.2]
    · rw [le_div_iff₀ (by norm_num)]; linarith
    · rw [div_lt_iff₀ (by norm_num)]; linarith

/-! ### The members of the summary -/

/-- The whole part of a speed in kilometres or miles per hour. -/
def trueSpeed (imperial : Bool) (s : Speed) : Option Int :=
  s.speedValue.map fun n => ⌊(n : Rat) * (mpsPer s.speedUnit /
    mpsPer (if imperial then .MILES_PER_HOUR else .KILOMETERS_PER_HOUR))⌋

/-- The whole part of a temperature in degrees Celsius or Fahrenheit. -/
def trueTemperature (imperial : Bool) (t : Temperature) : Option Int :=
  (tenths t).map fun n => if imperial then (9 * n + 1600).tdiv 50 else n.tdiv 10

theorem speedIn_true {s : Speed} (h : ∀ n, s.speedValue = some n → n < 1000) (imperial : Bool) :
    speedIn imperial s = trueSpeed imperial s := by
  cases hv : s.speedValue with
  | none => rw [toUnit_none.1 s |>.mpr hv]; simp [trueSpeed, hv]
  | some n => rw [C96_speed hv (h n hv)]; simp [trueSpeed, hv]

theorem temperatureIn_true {t : Temperature} (h : ∀ n, tenths t = some n → |n| < 1000) (imperial : Bool) :
    temperatureIn imperial t = trueTemperature imperial t := by
  cases hv : tenths t with
  | none =>
    have : t.isReported = false := by
      obtain ⟨v, f, p⟩ := t
      cases v
      · rfl
      · simp [tenths] at hv
    rw [toUnit_none.2.2.1 t |>.mpr this]
    simp [trueTemperature, hv]
  | some n =>
    cases imperial
    · rw [C96_celsius hv (h n hv).le]; simp [trueTemperature, hv]
    · rw [C96_fahrenheit hv (h n hv).le]; simp [trueTemperature, hv]

theorem wind_true {imperial : Bool} {wind : Group → Option WindGroup}
    {vis : Group → Option VisibilityGroup} {weather : Group → Option WeatherGroup} {gs : List Group}
    {r : CurrentWeather} (hw : ∀ g w, wind g = some w → g = .wind w) (hm : ∀ g ∈ gs, Modest g)
    (h : SkyAndWind imperial wind vis weather gs r) :
    r.windSpeed = orNone (lastOf (fun g => (wind g).bind fun w => trueSpeed imperial w.wSpeed) gs) ∧
    r.gustSpeed = orNone (lastOf (fun g => (wind g).bind fun w => trueSpeed imperial w.gSpeed) gs) := by
  rw [h.windSpeed, h.gustSpeed]
  constructor <;> congr 1 <;> refine lastOf_congr fun g hg => ?_
  all_goals
    cases e : wind g with
    | none => rfl
    | some w =>
      obtain rfl := hw g w e
      first
        | exact speedIn_true (hm _ hg).2.1 imperial
        | exact speedIn_true (hm _ hg).2.2 imperial

/-- C96: in the summary of a METAR report, speed of wind and gusts and temperature of the air are the
whole part of the true value. -/
theorem C96_metar {metar taf : Str} {y m d : Int} {imperial : Bool} {gs : List GroupInfo}
    {r : CurrentWeather} (hm : Gives metar .METAR gs) (h : getCurrentWeather metar taf y m d imperial = .ok r) :
    r.windSpeed = orNone (lastOf (fun g => (surfaceWind g).bind fun w => trueSpeed imperial w.wSpeed)
      (beforeTrend (gs.map (·.group)))) ∧
    r.gustSpeed = orNone (lastOf (fun g => (surfaceWind g).bind fun w => trueSpeed imperial w.gSpeed)
      (beforeTrend (gs.map (·.group)))) ∧
    r.airTemperature = orNone (lastOf (fun g => (temperatureGroupOf g).bind fun t => trueTemperature imperial t.t)
      (beforeTrend (gs.map (·.group)))) := by
  obtain ⟨s, t⟩ := C87_metar hm h
  have k : ∀ g ∈ beforeTrend (gs.map (·.group)), Modest g :=
    fun g hg => gives_modest hm g (beforeTrend_subset g hg)
  obtain ⟨a, b⟩ := wind_true surfaceWind_eq k s
  refine ⟨a, b, ?_⟩
  rw [t.airTemperature]
  congr 1
  refine lastOf_congr fun g hg => ?_
  cases e : temperatureGroupOf g with
  | none => rfl
  | some t =>
    cases g <;> simp only [temperatureGroupOf, reduceCtorEq] at e
    split at e
    · obtain rfl := Option.some.inj e
      exact temperatureIn_true (k _ hg).1 imperial
    · cases e

/-- C96: in the summary of a TAF report, speed of wind and gusts are the whole part of the true value. -/
theorem C96_taf {metar taf : Str} {y m d : Int} {imperial : Bool} {gs : List GroupInfo}
    {r : CurrentWeather} (hm : Refused metar .METAR) (ht : Gives taf .TAF gs)
    (h : getCurrentWeather metar taf y m d imperial = .ok r) :
    r.windSpeed = orNone (lastOf (fun g => (anyWind g).bind fun w => trueSpeed imperial w.wSpeed)
      (beforeSecondTrend (gs.map (·.group)))) ∧
    r.gustSpeed = orNone (lastOf (fun g => (anyWind g).bind fun w => trueSpeed imperial w.gSpeed)
      (beforeSecondTrend (gs.map (·.group)))) :=
  wind_true anyWind_eq (fun g hg => gives_modest ht g (beforeSecondTrend_subset g hg)) (C88_taf hm ht h).1

/-- C96: the lowest and highest temperature are the whole part of the true value. -/
theorem C96_high_low {metar taf : Str} {y m d : Int} {imperial : Bool} {gs : List GroupInfo}
    {r : CurrentWeather} (ht : Gives taf .TAF gs) (h : getCurrentWeather metar taf y m d imperial = .ok r) :
    r.airTemperatureLow =
      orNone ((lastOf minMaxOf (gs.map (·.group))).bind fun g => trueTemperature imperial g.minTemp) ∧
    r.airTemperatureHigh =
      orNone ((lastOf minMaxOf (gs.map (·.group))).bind fun g => trueTemperature imperial g.maxTemp) := by
  obtain ⟨a, b⟩ := C88_high_low ht h
  rw [a, b]
  cases hl : lastOf minMaxOf (gs.map (·.group)) with
  | none => exact ⟨rfl, rfl⟩
  | some g =>
    obtain ⟨x, hx, hf⟩ := lastOf_mem hl
    unfold minMaxOf at hf
    split at hf
    · obtain rfl := Option.some.inj hf
      have := gives_modest ht _ hx
      simp only [Option.bind_some, temperatureIn_true this.1, temperatureIn_true this.2]
      exact ⟨trivial, trivial⟩
    · cases hf

/-! ### C97 -/

/-- C97: a pressure in hectopascals is given as it is. -/
theorem C97_hectopascals (n : Nat) :
    pressureIn false ⟨some (n : Rat), .HECTOPASCAL⟩ = some (n : Int) :=
  congrArg some (part_int n)

/-- C97. What is missing: a pressure written as hundredths of an inch is given as the number written or
the number before it, see `C97_violated`; it should be the number written. -/
theorem C97_inches_partial {n : Nat} (hn : n < 10000) :
    pressureIn true ⟨some (inHgOf n), .INCHES_HG⟩ = some (n : Int) ∨
    (n ≠ 0 ∧ pressureIn true ⟨some (inHgOf n), .INCHES_HG⟩ = some ((n : Int) - 1)) := by
  have hq : |f32 (inHgOf n * 100) - n| ≤ 1 / 10 := by
    have hN : (n : Rat) ≤ 10000 := by exact_mod_cast hn.le
    have hN0 : (0 : Rat) ≤ n := by positivity
    have h1 := (C36_inHg_value n hn).1
    have h2 : |inHgOf n * 100 - n| ≤ 1 / 100 := by
      rw [abs_le] at h1 ⊢
      constructor <;> linarith [h1.1, h1.2]
    have h3 := f32_near 10000 h2 (by rw [abs_of_nonneg hN0]; exact hN) (by norm_num)
    refine le_trans h3 (by norm_num)
  rw [abs_le] at hq
  have e : pressureIn true ⟨some (inHgOf n), .INCHES_HG⟩ = some (integerPart (f32 (inHgOf n * 100))) := rfl
  rw [e]
  rcases Nat.eq_zero_or_pos n with rfl | hp
  · left
    have := part_range (q := f32 (inHgOf 0 * 100)) (lo := 0) (hi := 0) le_rfl le_rfl
      (by push_cast at hq ⊢; linarith [hq.1]) (by push_cast at hq ⊢; linarith [hq.2])
    exact congrArg some (by push_cast; omega)
  · rcases le_or_gt (n : Rat) (f32 (inHgOf n * 100)) with h | h
    · left
      rw [part_eq h (by linarith [hq.2])]
    · right
      refine ⟨by omega, ?_⟩
      obtain ⟨k, rfl⟩ : ∃ k, n = k + 1 := ⟨n - 1, by omega⟩
      rw [part_eq (n := k) (by push_cast at hq; linarith [hq.1]) (by push_cast at h; exact h)]
      simp

end Metaf.Props

/-! ### Examples -/

namespace Metaf.Props

open Metaf Metaf.Spec Metaf.Summary

attribute [local instance] ieee

set_option maxRecDepth 4000 in
/-- C97 does not hold: a pressure of 29.93 inches is given as 2992 hundredths. -/
theorem C97_violated : ∃ metar r, (∃ gs, Gives metar .METAR gs) ∧
    getCurrentWeather metar c!"" 2020 3 14 true = .ok r ∧
    pressureIn true ⟨some (inHgOf 2993), .INCHES_HG⟩ = some 2992 ∧ r.atmosphericPressure = 2992 := by
  have h' : (getCurrentWeather brokenText c!"" 2020 3 14 true).map (·.atmosphericPressure) = .ok 2992 := by
    kernel_rfl
  obtain ⟨r, hr⟩ := C92_total powTen_ieee powSmall_ieee brokenText c!"" 2020 3 14 true
  rw [hr] at h'
  exact ⟨brokenText, r, gives_of (by kernel_rfl), hr, by kernel_rfl, Except.ok.inj h'⟩

/-- Example: 20 knots are 23 miles per hour, 4 m/s are 14 km/h, −10 C are 14 F, −0.5 C is 0 C. -/
example : speedIn true ⟨some 20, .KNOTS⟩ = some 23 ∧ speedIn false ⟨some 4, .METERS_PER_SECOND⟩ = some 14 ∧
    temperatureIn true ⟨some (-10), false, false⟩ = some 14 ∧
    temperatureIn false ⟨some (-5), false, true⟩ = some 0 := by
  refine ⟨?_, ?_, ?_, ?_⟩
  · rw [C96_speed rfl (by norm_num)]
    norm_num [mpsPer]
  · rw [C96_speed rfl (by norm_num)]
    norm_num [mpsPer]
  · rw [C96_fahrenheit (n := -100) (by rfl) (by norm_num)]
    rfl
  · rw [C96_celsius (n := -5) (by rfl) (by norm_num)]
    rfl

end Metaf.Props
