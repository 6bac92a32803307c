import Verif.Props.ExplainExact
import Verif.Props.Misc

/-!
C104: the numbers of sunshine, hailstones and density altitude shown by `explain` (`/repo/examples/explain.cpp`).
-/

set_option linter.unusedSectionVars false

namespace Metaf.Props

open Metaf Metaf.Spec Metaf.Explain

variable [FloatIeee]

/-! ### Lemmas -/

theorem exponent_eq {q : Rat} {e : Int} (h1 : (10 : Rat) ^ e ≤ q) (h2 : q < (10 : Rat) ^ (e + 1)) :
    ∀ (k j : Nat) (s : Int), s = e + j → j ≤ k → Explain.exponent q k s = e := by
  intro k
  induction k with
  | zero =>
    intro j s hs hj
    obtain rfl : j = 0 := by omega
    unfold Explain.exponent
    omega
  | succ k ih =>
    intro j s hs hj
    unfold Explain.exponent
    rcases Nat.eq_zero_or_pos j with rfl | hpos
    · rw [if_pos (by rw [hs]; simpa using h1)]
      omega
    · rw [if_neg]
      · exact ih (j - 1) (s - 1) (by omega) (by omega)
      · have : (10 : Rat) ^ (e + 1) ≤ (10 : Rat) ^ s := zpow_le_zpow_right₀ (by norm_num) (by omega)
        exact not_le.mpr (lt_of_lt_of_le h2 this)

theorem roundEven_int (n : Int) : roundEven (n : Rat) = n := by
  unfold roundEven
  rw [if_pos (by rw [Int.floor_intCast]; norm_num), Int.floor_intCast]

theorem digits_zero (w : Nat) : digits w 0 = List.replicate w '0' := by
  induction w with
  | zero => rfl
  | succ w ih =>
    unfold digits
    rw [Nat.zero_div, ih]
    exact (List.replicate_succ' ..).symm

theorem stripZeros_zeros (w : Nat) : stripZeros (List.replicate w '0') = [] := by
  unfold stripZeros
  rw [List.reverse_replicate, List.reverse_eq_nil_iff, List.dropWhile_eq_nil_iff]
  intro c hc
  rw [List.eq_of_mem_replicate hc]
  rfl

/-- A whole number with up to six digits is shown with all its digits and nothing else. -/
theorem showFloat_whole {n : Nat} (h0 : 0 < n) (hn : n < 1000000) : showFloat (n : Rat) = showNat n := by
  obtain ⟨e, he, h1, h2⟩ : ∃ e : Nat, e ≤ 5 ∧ 10 ^ e ≤ n ∧ n < 10 ^ (e + 1) := by
    rcases Nat.lt_or_ge n 10 with a | a
    · exact ⟨0, by omega, by omega, by omega⟩
    rcases Nat.lt_or_ge n 100 with b | b
    · exact ⟨1, by omega, by omega, by omega⟩
    rcases Nat.lt_or_ge n 1000 with c | c
    · exact ⟨2, by omega, by omega, by omega⟩
    rcases Nat.lt_or_ge n 10000 with d | d
    · exact ⟨3, by omega, by omega, by omega⟩
    rcases Nat.lt_or_ge n 100000 with f | f
    · exact ⟨4, by omega, by omega, by omega⟩
    · exact ⟨5, by omega, by omega, by omega⟩
  have q0 : (n : Rat) ≠ 0 := by exact_mod_cast h0.ne'
  have habs : |(n : Rat)| = n := abs_of_nonneg (by positivity)
  have hx : Explain.exponent (n : Rat) 90 38 = e := by
    refine exponent_eq (e := e) ?_ ?_ 90 (38 - e) 38 (by omega) (by omega)
    · rw [zpow_natCast]; exact_mod_cast h1
    · rw [show ((e : Int) + 1) = ((e + 1 : Nat) : Int) by norm_num, zpow_natCast]; exact_mod_cast h2
  have hm : roundEven ((n : Rat) / (10 : Rat) ^ ((e : Int) - 5)) = ((n * 10 ^ (5 - e) : Nat) : Int) := by
    have : (n : Rat) / (10 : Rat) ^ ((e : Int) - 5) = (((n * 10 ^ (5 - e) : Nat) : Int) : Rat) := by
      rw [show ((e : Int) - 5) = -((5 - e : Nat) : Int) by omega, zpow_neg, zpow_natCast, div_inv_eq_mul]
      norm_cast
    rw [this, roundEven_int]
  have hlt : n * 10 ^ (5 - e) < 1000000 := by
    have : n * 10 ^ (5 - e) < 10 ^ (e + 1) * 10 ^ (5 - e) := Nat.mul_lt_mul_of_pos_right h2 (by positivity)
    rw [← Nat.pow_add, show e + 1 + (5 - e) = 6 by omega] at this
    omega
  unfold showFloat
  rw [if_neg q0]
  dsimp only
  rw [habs, hx, hm, Int.toNat_natCast, if_neg (show ¬ n * 10 ^ (5 - e) = 1000000 by omega)]
  dsimp only
  rw [if_pos (by omega), show ((5 : Int) - (e : Int)).toNat = 5 - e by omega,
    Nat.mul_div_cancel _ (by positivity), Nat.mul_mod_left, digits_zero, stripZeros_zeros]
  have : sign (n : Rat) = [] := by
    unfold sign
    rw [if_neg (not_lt.mpr (by positivity))]
  rw [this]
  simp [fraction]

/-- A number of quarters of an inch below ten inches as text. -/
def quartersText (q : Nat) : Str :=
  showNat (q / 4) ++ (if q % 4 = 1 then c!".25" else if q % 4 = 2 then c!".5" else if q % 4 = 3 then c!".75" else [])

theorem showFloat_quarters : ∀ q : Nat, q < 40 → 1 ≤ q → showFloat ((q : Rat) / 4) = quartersText q := by decide +kernel

theorem three_joined {x : Res Str} (hx : x = .ok []) (a b t : Str) (s : Str) (h : s = a ++ t ++ b := by rfl) :
    cat [x, cat [text a, text t, text b]] = .ok s := by
  subst hx h
  simp [cat, text, bind, Except.bind]

/-! ### C104 -/

/-- C104. The duration of sunshine is shown as written; if it is none, this is said. -/
theorem C104_sunshine (n : Nat) (hn : n < 1000) :
    ∃ g, MiscText .RMK [c!"98" ++ decimal 3 n] g ∧ visitMiscGroup g = .ok
      (if n = 0 then c!"No sunshine occurred the previous calendar day"
       else c!"Duration of sunshine that occurred the previous calendar day is " ++ showNat n ++ c!" minutes") := by
  refine ⟨_, .sunshine hn, ?_⟩
  rcases Nat.eq_zero_or_pos n with rfl | h0
  · rw [if_pos rfl]
    unfold visitMiscGroup miscText
    dsimp only [value]
    rw [if_neg (by simp)]
    rfl
  · rw [if_neg h0.ne', ← showFloat_whole h0 (by omega)]
    have : (n : Rat) ≠ 0 := by exact_mod_cast h0.ne'
    unfold visitMiscGroup miscText
    dsimp only [value]
    rw [if_pos this]
    generalize showFloat (n : Rat) = t
    exact three_joined rfl _ _ t _

/-- C104. The size of hailstones is shown as written, in inches and quarters of an inch. -/
theorem C104_hailstones {ws : List Str} {g : MiscGroup} (h : MiscText .RMK ws g) (ht : g.groupType = .HAILSTONE_SIZE)
    (hc : g.incompleteText ≠ .GR) :
    ∃ q : Nat, 1 ≤ q ∧ q < 40 ∧ g.groupData = some ((q : Rat) / 4) ∧ (g.incompleteText = .NONE → visitMiscGroup g = .ok
      (c!"Largest hailstone size is " ++ quartersText q ++ c!" inches")) := by
  have key : ∀ q : Nat, 1 ≤ q → q < 40 → ∀ g : MiscGroup, g.groupType = .HAILSTONE_SIZE →
      g.groupData = some ((q : Rat) / 4) → g.incompleteText = .NONE → visitMiscGroup g = .ok
      (c!"Largest hailstone size is " ++ quartersText q ++ c!" inches") := by
    intro q h1 h2 g e1 e2 e3
    obtain ⟨t, d, i⟩ := g
    dsimp only at e1 e2 e3
    subst e1 e2 e3
    rw [← showFloat_quarters q h2 h1]
    generalize hs : showFloat ((q : Rat) / 4) = t
    have e : visitMiscGroup { groupType := .HAILSTONE_SIZE, groupData := some ((q : Rat) / 4) } =
        cat [.ok [], cat [text c!"Largest hailstone size is ", text (showFloat ((q : Rat) / 4)), text c!" inches"]] := rfl
    rw [e, hs]
    exact three_joined rfl _ _ t _
  have whole : ∀ n : Nat, ((n : Nat) : Rat) = ((4 * n : Nat) : Rat) / 4 := by intro n; push_cast; ring
  have q3 : ∀ w q, (w, q) ∈ quarterTexts → 1 ≤ q ∧ q ≤ 3 := by
    intro w q hw
    simp only [quarterTexts, List.mem_cons, Prod.mk.injEq, List.not_mem_nil, or_false] at hw
    omega
  cases h with
  | hail => exact absurd rfl hc
  | @hailInches n a b => exact ⟨4 * n, by omega, by omega, by rw [whole], fun e => nomatch e⟩
  | @hailQuarters w q a =>
    have := q3 w q a
    exact ⟨q, by omega, by omega, rfl, key q (by omega) (by omega) _ rfl rfl⟩
  | @hailBoth n w q a b c =>
    have := q3 w q c
    have e : ((n : Nat) : Rat) + (q : Rat) / 4 = ((4 * n + q : Nat) : Rat) / 4 := by push_cast; ring
    exact ⟨4 * n + q, by omega, by omega, by rw [e], key _ (by omega) (by omega) _ rfl (by rw [e])⟩
  | colour hp hw =>
    exfalso
    have : ∀ p ∈ colourCodes, p.2 ≠ .HAILSTONE_SIZE := by decide
    exact this _ hw ht
  | _ => cases ht

/-- C104. A density altitude below 1 000 000 feet is shown as written. What is missing: greater ones, see
`C104_altitude_violated`. -/
theorem C104_altitude_partial (k n : Nat) (hk : 0 < k) (hn : n < 10 ^ k) (hm : n < 1000000) :
    ∃ g, MiscText .RMK [c!"DENSITY", c!"ALT", decimal k n ++ c!"FT"] g ∧
      visitMiscGroup g = .ok (c!"Density altitude  is " ++ showNat n ++ c!" feet") := by
  refine ⟨_, .densityValue hk hn, ?_⟩
  have e : f32 ((n % 2 ^ 32 : Nat) : Rat) = n := by
    rw [Nat.mod_eq_of_lt (by omega)]
    exact f32_nat (by omega)
  rw [e]
  have : showFloat (n : Rat) = showNat n := by
    rcases Nat.eq_zero_or_pos n with rfl | h0
    · simp only [showFloat, Nat.cast_zero, ↓reduceIte]
      rfl
    · exact showFloat_whole h0 hm
  rw [← this]
  generalize hs : showFloat (n : Rat) = t
  have e : visitMiscGroup { groupType := .DENSITY_ALTITUDE, groupData := some (n : Rat) } =
      cat [.ok [], cat [text c!"Density altitude ", cat [text c!" is ", text (showFloat (n : Rat)), text c!" feet"]]] := rfl
  rw [e, hs]
  simp only [cat, text, bind, Except.bind]
  simp

end Metaf.Props

namespace Metaf.Props

open Metaf Metaf.Spec Metaf.Explain

attribute [local instance] ieee

/-- C104: a density altitude of 1 000 000 feet or more is shown in exponential form and cut to six digits. -/
theorem C104_altitude_violated : ∃ g, MiscText .RMK [c!"DENSITY", c!"ALT", c!"1234567FT"] g ∧
    visitMiscGroup g = .ok c!"Density altitude  is 1.23457e+06 feet" :=
  ⟨_, .densityValue (k := 7) (n := 1234567) (by decide) (by decide), by kernel_rfl⟩

/-! ### Examples -/

example : ∃ g, MiscText .RMK [c!"98096"] g ∧ visitMiscGroup g =
    .ok c!"Duration of sunshine that occurred the previous calendar day is 96 minutes" := C104_sunshine 96 (by decide)

example : ∃ g, MiscText .RMK [c!"GR", c!"1", c!"3/4"] g ∧ visitMiscGroup g =
    .ok c!"Largest hailstone size is 1.75 inches" := by
  have h : MiscText .RMK [c!"GR", c!"1", c!"3/4"] _ := .hailBoth (n := 1) (q := 3) (by decide) (by decide) (by decide)
  exact ⟨_, h, by kernel_rfl⟩

example : ∃ g, MiscText .RMK [c!"DENSITY", c!"ALT", c!"90123FT"] g ∧ visitMiscGroup g =
    .ok c!"Density altitude  is 90123 feet" := C104_altitude_partial 5 90123 (by decide) (by decide) (by decide)

end Metaf.Props
