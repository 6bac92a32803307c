import Verif.Proofs.Explain
import Verif.Spec.Decimal
import Mathlib.Tactic.Ring
import Mathlib.Tactic.NormNum
import Mathlib.Tactic.Positivity
import Mathlib.Tactic.FieldSimp

/-!
Lemmas on the numbers shown by `explain.cpp`.
-/

set_option linter.unusedSectionVars false

namespace Metaf.Explain

open Metaf Metaf.Spec

/-- The number a text of digits denotes. -/
def readDigits (s : Str) : Nat := s.foldl (fun n c => 10 * n + (c.toNat - 48)) 0

/-- A decimal number without leading zeros. -/
def Numeral (s : Str) (n : Nat) : Prop :=
  s ≠ [] ∧ (∀ c ∈ s, '0' ≤ c ∧ c ≤ '9') ∧ (s.head? = some '0' → s = ['0']) ∧ readDigits s = n

theorem digits_decimal (w n : Nat) : digits w n = decimal w n := by
  induction w generalizing n with
  | zero => rfl
  | succ w ih =>
    unfold digits decimal
    rw [ih]
    have : ∀ k < 10, Char.ofNat (48 + k) = Nat.digitChar k := by decide
    rw [this _ (Nat.mod_lt _ (by decide))]

theorem showNat_big {n : Nat} (h : 10 ≤ n) : showNat n = showNat (n / 10) ++ [Nat.digitChar (n % 10)] :=
  Nat.toDigits_of_base_le (by decide) h

theorem showNat_small {n : Nat} (h : n < 10) : showNat n = [Nat.digitChar n] :=
  Nat.toDigits_of_lt_base h

theorem showNat_numeral (n : Nat) : Numeral (showNat n) n := by
  refine ⟨Nat.toDigits_ne_nil, ?_, ?_, Nat.ofDigitChars_ten_toDigits⟩
  · intro c hc
    have : 48 ≤ c.toNat ∧ c.toNat ≤ 57 :=
      Char.isDigit_iff_toNat.mp (Nat.isDigit_of_mem_toDigits (by decide) (by decide) hc)
    exact this
  · induction n using Nat.strong_induction_on with
    | _ n ih =>
      intro h0
      rcases Nat.lt_or_ge n 10 with h | h
      · rw [showNat_small h] at h0 ⊢
        simpa using h0
      · rw [showNat_big h] at h0
        have hh : (showNat (n / 10)).head? = some '0' := by
          have hne : showNat (n / 10) ≠ [] := Nat.toDigits_ne_nil
          cases hs : showNat (n / 10) with
          | nil => exact absurd hs hne
          | cons c s => rw [hs] at h0; exact h0
        have h1 := ih (n / 10) (by omega) hh
        have h2 : readDigits (showNat (n / 10)) = n / 10 := Nat.ofDigitChars_ten_toDigits
        rw [h1] at h2
        have : readDigits ['0'] = 0 := rfl
        omega

/-- A number determines its numeral, and is determined by it. -/
theorem showNat_inj {n m : Nat} (h : showNat n = showNat m) : n = m := by
  rw [← (showNat_numeral n).2.2.2, h, (showNat_numeral m).2.2.2]

theorem decimal_read (w n : Nat) : readDigits (decimal w n) = n % 10 ^ w := by
  induction w generalizing n with
  | zero => simp [decimal, readDigits, Nat.mod_one]
  | succ w ih =>
    have hd : ∀ k < 10, (Nat.digitChar k).toNat - 48 = k := by decide
    unfold decimal
    unfold readDigits at ih ⊢
    rw [List.foldl_append, ih]
    simp only [List.foldl_cons, List.foldl_nil]
    rw [hd _ (Nat.mod_lt _ (by decide)), Nat.pow_succ, Nat.mul_comm (10 ^ w) 10, Nat.mod_mul]
    omega

theorem decimal_length' (w n : Nat) : (decimal w n).length = w := by
  induction w generalizing n with
  | zero => rfl
  | succ w ih => simp [decimal, ih]

theorem decimal_take (w k n : Nat) : (decimal (w + k) n).take w = decimal w (n / 10 ^ k) := by
  induction k generalizing n with
  | zero =>
    rw [Nat.add_zero, List.take_of_length_le (by rw [decimal_length'])]
    simp
  | succ k ih =>
    rw [← Nat.add_assoc]
    show (decimal (w + k) (n / 10) ++ _).take w = _
    rw [List.take_append_of_le_length (by rw [decimal_length']; omega), ih, Nat.div_div_eq_div_mul,
      Nat.pow_succ, Nat.mul_comm]

/-! ### Numbers with decimals -/

/-- The text `s` is a number with `d` decimals, and denotes `v`. -/
def Shows (d : Nat) (s : Str) (v : Rat) : Prop :=
  ∃ (minus : Bool) (a : Str) (n m : Nat), Numeral a n ∧ m < 10 ^ d ∧
    s = (if minus then c!"-" else []) ++ a ++ c!"." ++ decimal d m ∧
    v = (if minus then -1 else 1) * (n + m / 10 ^ d)

variable [FloatSem]

theorem findFrom_point {a b : Str} (h : '.' ∉ a) : findFrom (a ++ '.' :: b) '.' 0 = some a.length := by
  unfold findFrom
  have hf : a.findIdx? (· == '.') = none := by
    rw [List.findIdx?_eq_none_iff]
    intro x hx
    simp only [beq_eq_false_iff_ne, ne_eq]
    rintro rfl
    exact h hx
  have hl : 0 < (a ++ '.' :: b).length := by simp
  simp only [List.drop_zero, hl, ↓reduceIte, List.findIdx?_append, hf, List.findIdx?_cons]
  simp

theorem numeral_point {s : Str} {n : Nat} (h : Numeral s n) : '.' ∉ s := by
  intro hc
  have := h.2.1 _ hc
  revert this
  decide

/-- What `roundTo` shows: the number rounded to six decimals, with the decimals after the first `d` cut. -/
theorem roundTo_eq (q : Rat) {d : Nat} (hd : d ≤ 6) :
    ∃ N : Nat, (N : Int) = roundEven (|q| * 1000000) ∧
      roundTo q d = sign q ++ showNat (N / 1000000) ++ c!"." ++ decimal d (N % 1000000 / 10 ^ (6 - d)) := by
  have hN : 0 ≤ roundEven (|q| * 1000000) := by
    have h := roundEven_half (|q| * 1000000)
    have h1 := (abs_le.mp h).1
    have h2 : (0 : Rat) ≤ |q| * 1000000 := by positivity
    have h3 : (-1 : Rat) < roundEven (|q| * 1000000) := by linarith
    have h4 : (-1 : Int) < roundEven (|q| * 1000000) := by exact_mod_cast h3
    omega
  refine ⟨(roundEven (|q| * 1000000)).toNat, Int.toNat_of_nonneg hN, ?_⟩
  unfold roundTo
  generalize hn : (roundEven (|q| * 1000000)).toNat = n
  have hs : Explain.toString q = (sign q ++ showNat (n / 1000000)) ++ '.' :: decimal 6 (n % 1000000) := by
    unfold Explain.toString
    dsimp only
    rw [hn, digits_decimal]
  have hp : '.' ∉ sign q ++ showNat (n / 1000000) := by
    rw [List.mem_append]
    rintro (h | h)
    · unfold sign at h
      split at h
      · revert h; decide
      · cases h
    · exact numeral_point (showNat_numeral _) h
  dsimp only
  rw [hs, findFrom_point hp]
  dsimp only
  rw [if_pos]
  · unfold substr
    generalize hx : sign q ++ showNat (n / 1000000) = x
    rw [List.drop_zero, show x.length + d + 1 = x.length + (d + 1) from by omega, List.take_length_add_append,
      List.take_succ_cons]
    have := decimal_take d (6 - d) (n % 1000000)
    rw [show d + (6 - d) = 6 by omega] at this
    rw [this]
    simp
  · simp [decimal_length']
    omega

/-- The digits shown: `K` in units of the last decimal, of the number `N` of millionths. -/
theorem roundTo_parts (q : Rat) {d : Nat} (hd : d ≤ 6) :
    ∃ (v : Rat) (N K R : Nat), Shows d (roundTo q d) v ∧ |v| = K / 10 ^ d ∧ N = K * 10 ^ (6 - d) + R ∧
      R < 10 ^ (6 - d) ∧ |(N : Rat) - |q| * 1000000| ≤ 1 / 2 ∧ 0 ≤ v * q := by
  obtain ⟨N, hN, hr⟩ := roundTo_eq q hd
  have hb : N % 1000000 / 10 ^ (6 - d) < 10 ^ d := by
    rw [Nat.div_lt_iff_lt_mul (by positivity), ← Nat.pow_add, show d + (6 - d) = 6 by omega]
    exact Nat.mod_lt _ (by decide)
  generalize hA : N / 1000000 = A at *
  generalize hC : N % 1000000 / 10 ^ (6 - d) = C at *
  have hdec : ∃ R < 10 ^ (6 - d), N = (A * 10 ^ d + C) * 10 ^ (6 - d) + R := by
    refine ⟨N % 1000000 % 10 ^ (6 - d), Nat.mod_lt _ (by positivity), ?_⟩
    have h1 := Nat.div_add_mod (N % 1000000) (10 ^ (6 - d))
    have h2 := Nat.div_add_mod N 1000000
    rw [hC] at h1
    rw [hA] at h2
    have h3 : 10 ^ d * 10 ^ (6 - d) = 1000000 := by
      rw [← pow_add, show d + (6 - d) = 6 by omega]; norm_num
    rw [Nat.add_mul, Nat.mul_assoc, h3, Nat.mul_comm C]
    omega
  obtain ⟨R, hR, hNd⟩ := hdec
  have hround : |(N : Rat) - |q| * 1000000| ≤ 1 / 2 := by
    have := roundEven_half (|q| * 1000000)
    rw [← hN] at this
    exact_mod_cast this
  have hw0 : (0 : Rat) ≤ A + C / 10 ^ d := by positivity
  have hK : ((A * 10 ^ d + C : Nat) : Rat) / 10 ^ d = A + C / 10 ^ d := by
    have hd0 : (10 : Rat) ^ d ≠ 0 := by positivity
    push_cast
    field_simp
  generalize hW : (A + C / 10 ^ d : Rat) = W at *
  by_cases hq : q < 0
  · refine ⟨-W, N, _, R, ⟨true, showNat A, A, C, showNat_numeral A, hb, ?_, ?_⟩, ?_, hNd, hR, hround, ?_⟩
    · rw [hr, sign, if_pos hq]; rfl
    · rw [if_pos rfl, hW]; ring
    · rw [abs_neg, abs_of_nonneg hw0, hK]
    · nlinarith
  · refine ⟨W, N, _, R, ⟨false, showNat A, A, C, showNat_numeral A, hb, ?_, ?_⟩, ?_, hNd, hR, hround, ?_⟩
    · rw [hr, sign, if_neg hq]; rfl
    · rw [if_neg (by simp), hW]; ring
    · rw [abs_of_nonneg hw0, hK]
    · exact mul_nonneg hw0 (not_lt.mp hq)

/-- The number shown is the number given, cut after `d` decimals, up to half a millionth. -/
theorem roundTo_shows (q : Rat) {d : Nat} (hd : d ≤ 6) :
    ∃ v, Shows d (roundTo q d) v ∧ |v| ≤ |q| + 1 / 2000000 ∧ |q| < |v| + 1 / 10 ^ d + 1 / 2000000 ∧ 0 ≤ v * q := by
  obtain ⟨v, N, K, R, h1, h2, h3, h4, h5, h6⟩ := roundTo_parts q hd
  refine ⟨v, h1, ?_, ?_, h6⟩
  all_goals
    have hpow : (10 : Rat) ^ (6 - d) * 10 ^ d = 1000000 := by
      rw [← pow_add, show 6 - d + d = 6 by omega]; norm_num
    have hd0 : (0 : Rat) < 10 ^ d := by positivity
    have h4' : (R : Rat) < 10 ^ (6 - d) := by exact_mod_cast h4
    have hw : |v| * 1000000 + R = N := by
      rw [h2, h3, ← hpow]
      push_cast
      field_simp
    have hgap : (R : Rat) < 1 / 10 ^ d * 1000000 := by
      calc (R : Rat) < 10 ^ (6 - d) := h4'
        _ = 1 / 10 ^ d * 1000000 := by rw [← hpow]; field_simp
    have hR0 : (0 : Rat) ≤ R := by positivity
    have hr' := abs_le.mp h5
    linarith

/-- A number that differs little from a number with `d` decimals is shown as the latter. -/
theorem roundTo_exact (q : Rat) {d : Nat} (hd : d ≤ 6) (z : Nat) (h1 : (z : Rat) / 10 ^ d - 1 / 2000000 < |q|)
    (h2 : |q| < (z + 1) / 10 ^ d - 1 / 2000000) :
    ∃ v, Shows d (roundTo q d) v ∧ |v| = z / 10 ^ d ∧ 0 ≤ v * q := by
  obtain ⟨v, N, K, R, g1, g2, g3, g4, g5, g6⟩ := roundTo_parts q hd
  refine ⟨v, g1, ?_, g6⟩
  rw [g2]
  have hd0 : (0 : Rat) < 10 ^ d := by positivity
  have hpow : (10 : Rat) ^ (6 - d) * 10 ^ d = 1000000 := by
    rw [← pow_add, show 6 - d + d = 6 by omega]; norm_num
  have e : ∀ x : Rat, x / 10 ^ d * 1000000 = x * 10 ^ (6 - d) := by
    intro x
    rw [← hpow]
    field_simp
  have e1 := e z
  have e2 := e (z + 1)
  have hr := abs_le.mp g5
  have l1 : ((z * 10 ^ (6 - d) : Nat) : Rat) < ((N + 1 : Nat) : Rat) := by push_cast; linarith
  have l2 : (N : Rat) < (((z + 1) * 10 ^ (6 - d) : Nat) : Rat) := by push_cast; linarith
  have l1' : z * 10 ^ (6 - d) < N + 1 := by exact_mod_cast l1
  have l2' : N < (z + 1) * 10 ^ (6 - d) := by exact_mod_cast l2
  have hKz : K = z := by
    have p0 : 0 < 10 ^ (6 - d) := by positivity
    generalize 10 ^ (6 - d) = P at *
    have a1 : z < K + 1 := by
      by_contra hc
      have := Nat.mul_le_mul_right P (not_lt.mp hc)
      rw [Nat.add_mul] at this
      omega
    have a2 : K < z + 1 := by
      by_contra hc
      have := Nat.mul_le_mul_right P (not_lt.mp hc)
      omega
    omega
  rw [hKz]

/-- The distance of the number shown from the number given. -/
theorem roundTo_near (q : Rat) {d : Nat} (hd : d ≤ 6) :
    ∃ v, Shows d (roundTo q d) v ∧ |v - q| < 1 / 10 ^ d + 1 / 1000000 := by
  obtain ⟨v, h1, h2, h3, h4⟩ := roundTo_shows q hd
  refine ⟨v, h1, ?_⟩
  have hp : (0 : Rat) < 1 / 10 ^ d := by positivity
  rw [abs_lt]
  rcases lt_or_ge q 0 with hq | hq
  · have hv : v ≤ 0 := by
      by_contra hv
      rw [not_le] at hv
      have := mul_neg_of_pos_of_neg hv hq
      linarith
    rw [abs_of_nonpos hv, abs_of_neg hq] at *
    constructor <;> linarith
  · rcases hq.eq_or_lt with rfl | hq
    · rw [abs_zero] at *
      have := abs_le.mp h2
      constructor <;> linarith
    · have hv : 0 ≤ v := by
        by_contra hv
        rw [not_le] at hv
        have := mul_neg_of_neg_of_pos hv hq
        linarith
      rw [abs_of_nonneg hv, abs_of_pos hq] at *
      constructor <;> linarith

end Metaf.Explain
