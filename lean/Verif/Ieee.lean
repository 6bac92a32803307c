import Mathlib.Data.Int.Log
import Mathlib.Data.Rat.Floor
import Mathlib.Tactic.Linarith
import Mathlib.Tactic.Positivity
import Mathlib.Tactic.Ring
import Mathlib.Tactic.FieldSimp
import Mathlib.Tactic.NormNum
import Verif.Float

/-!
Rounding to nearest, ties to even, with a limited number of significant bits, as IEEE 754 defines it
for binary32 and binary64 (subnormal numbers included).  It satisfies the laws of `FloatSem`, so the
theorems about any `FloatSem` hold for the arithmetic of the usual platforms.  Overflow is not
modelled: the exponent has no upper bound.
-/

namespace Metaf

/-- Nearest integer, ties to even. -/
def roundEven (q : Rat) : Int :=
  if q - ⌊q⌋ < 1 / 2 then ⌊q⌋
  else if 1 / 2 < q - ⌊q⌋ then ⌊q⌋ + 1
  else if ⌊q⌋ % 2 = 0 then ⌊q⌋ else ⌊q⌋ + 1

/-- The exponent of the last bit of the format with `p` significant bits and least exponent `emin`
at `x`. -/
def lastBit (p : Nat) (emin : Int) (x : Rat) : Int := max (Int.log 2 |x|) emin - (p - 1)

/-- `x` rounded to `p` significant bits, with exponents not below `emin`. -/
def roundBits (p : Nat) (emin : Int) (x : Rat) : Rat :=
  roundEven (x / 2 ^ lastBit p emin x) * 2 ^ lastBit p emin x

/-- Numbers of the format. -/
def Representable (p : Nat) (emin : Int) (r : Rat) : Prop :=
  ∃ k j : Int, r = k * 2 ^ j ∧ |k| ≤ 2 ^ p ∧ emin - (p - 1) ≤ j

theorem roundEven_half (q : Rat) : |(roundEven q : Rat) - q| ≤ 1 / 2 := by
  have h1 := Int.floor_le q
  have h2 := Int.lt_floor_add_one q
  rw [abs_le]
  unfold roundEven
  split
  · constructor <;> linarith
  · split
    · push_cast; constructor <;> linarith
    · split
      · constructor <;> linarith
      · push_cast; constructor <;> linarith

theorem roundEven_nearest (q : Rat) (n : Int) : |(roundEven q : Rat) - q| ≤ |(n : Rat) - q| := by
  by_cases h : n = roundEven q
  · rw [h]
  · have h1 := roundEven_half q
    have h2 : (1 : Rat) ≤ |(n : Rat) - roundEven q| := by
      have : (1 : Int) ≤ |n - roundEven q| := Int.one_le_abs (by omega)
      have h3 : ((1 : Int) : Rat) ≤ ((|n - roundEven q| : Int) : Rat) := by exact_mod_cast this
      push_cast at h3
      exact h3
    have h3 : |(n : Rat) - roundEven q| ≤ |(n : Rat) - q| + |(roundEven q : Rat) - q| := by
      have := abs_sub ((n : Rat) - q) ((roundEven q : Rat) - q)
      rw [show (n : Rat) - q - ((roundEven q : Rat) - q) = n - roundEven q by ring] at this
      exact this
    linarith

theorem two_zpow_pos (j : Int) : (0 : Rat) < 2 ^ j := zpow_pos (by norm_num) j

theorem two_zpow_le {i j : Int} (h : i ≤ j) : (2 : Rat) ^ i ≤ 2 ^ j :=
  zpow_le_zpow_right₀ (by norm_num) h

theorem two_zpow_add (i j : Int) : (2 : Rat) ^ (i + j) = 2 ^ i * 2 ^ j :=
  zpow_add₀ (by norm_num) i j

theorem two_zpow_nat (n : Nat) : (2 : Rat) ^ (n : Int) = ((2 ^ n : Int) : Rat) := by
  push_cast; rw [zpow_natCast]

/-- A multiple of the last bit at `x` is not nearer to `x` than its rounding. -/
theorem nearest_grid (p : Nat) (emin : Int) (x : Rat) (n : Int) :
    |roundBits p emin x - x| ≤ |n * 2 ^ lastBit p emin x - x| := by
  have hu := two_zpow_pos (lastBit p emin x)
  generalize hl : lastBit p emin x = l at *
  have h := roundEven_nearest (x / 2 ^ l) n
  have e1 : roundBits p emin x - x = (roundEven (x / 2 ^ l) - x / 2 ^ l) * 2 ^ l := by
    unfold roundBits; rw [hl]; field_simp
  have e2 : (n : Rat) * 2 ^ l - x = (n - x / 2 ^ l) * 2 ^ l := by field_simp
  rw [e1, e2, abs_mul, abs_mul]
  exact mul_le_mul_of_nonneg_right h (abs_nonneg _)

theorem roundBits_zero (p : Nat) (emin : Int) : roundBits p emin 0 = 0 := by
  unfold roundBits
  rw [zero_div]
  simp [roundEven]

/-- Rounding gives a nearest number of the format. -/
theorem nearest (p : Nat) (hp : 0 < p) (emin : Int) (x r : Rat) (hr : Representable p emin r) :
    |roundBits p emin x - x| ≤ |r - x| := by
  obtain ⟨k, j, rfl, hk, hj⟩ := hr
  by_cases hjl : lastBit p emin x ≤ j
  · have := nearest_grid p emin x (k * 2 ^ (j - lastBit p emin x).toNat)
    have e : ((k * 2 ^ (j - lastBit p emin x).toNat : Int) : Rat) * 2 ^ lastBit p emin x = k * 2 ^ j := by
      push_cast
      rw [mul_assoc, ← zpow_natCast, ← two_zpow_add]
      congr 2
      omega
    rwa [e] at this
  · by_cases hx0 : x = 0
    · subst hx0
      rw [roundBits_zero, sub_self, abs_zero]
      exact abs_nonneg _
    have hl : lastBit p emin x = Int.log 2 |x| - (p - 1) := by
      unfold lastBit at hjl ⊢
      rcases le_total (Int.log 2 |x|) emin with h | h
      · rw [max_eq_right h] at hjl; omega
      · rw [max_eq_left h]
    have hlog : (2 : Rat) ^ Int.log 2 |x| ≤ |x| := Int.zpow_log_le_self (by norm_num) (abs_pos.mpr hx0)
    have hr : |(k : Rat) * 2 ^ j| ≤ 2 ^ Int.log 2 |x| := by
      have hk' : |(k : Rat)| ≤ 2 ^ (p : Int) := by
        rw [two_zpow_nat]
        exact_mod_cast hk
      rw [abs_mul, abs_of_pos (two_zpow_pos j)]
      calc |(k : Rat)| * 2 ^ j ≤ 2 ^ (p : Int) * 2 ^ j := by
            exact mul_le_mul_of_nonneg_right hk' (le_of_lt (two_zpow_pos j))
        _ = 2 ^ ((p : Int) + j) := (two_zpow_add _ _).symm
        _ ≤ 2 ^ Int.log 2 |x| := two_zpow_le (by omega)
    have hgrid : (2 : Rat) ^ Int.log 2 |x| = ((2 ^ (p - 1) : Int) : Rat) * 2 ^ lastBit p emin x := by
      rw [← two_zpow_nat, ← two_zpow_add]
      congr 1
      rw [hl]
      omega
    generalize hb : (2 : Rat) ^ Int.log 2 |x| = b at *
    rcases lt_or_gt_of_ne hx0 with hneg | hpos
    · have := nearest_grid p emin x (-(2 ^ (p - 1)))
      push_cast at this hgrid
      rw [neg_mul, ← hgrid] at this
      refine le_trans this ?_
      rw [abs_of_neg hneg] at hlog
      rw [abs_of_nonneg (by linarith), abs_of_nonneg (by have := (abs_le.mp hr).1; linarith)]
      have := (abs_le.mp hr).1
      linarith
    · have := nearest_grid p emin x (2 ^ (p - 1))
      rw [← hgrid] at this
      refine le_trans this ?_
      rw [abs_of_pos hpos] at hlog
      rw [abs_of_nonpos (by linarith), abs_of_nonpos (by have := (abs_le.mp hr).2; linarith)]
      have := (abs_le.mp hr).2
      linarith

/-- Rounding gives a number of the format. -/
theorem representable (p : Nat) (emin : Int) (x : Rat) :
    Representable p emin (roundBits p emin x) := by
  refine ⟨roundEven (x / 2 ^ lastBit p emin x), lastBit p emin x, rfl, ?_, ?_⟩
  · have hlt : |x| < 2 ^ (p : Int) * 2 ^ lastBit p emin x := by
      rw [← two_zpow_add]
      have h1 : |x| < 2 ^ (Int.log 2 |x| + 1) := by
        have := Int.lt_zpow_succ_log_self (b := 2) (by norm_num) |x|
        simpa using this
      refine lt_of_lt_of_le h1 (two_zpow_le ?_)
      unfold lastBit
      have := le_max_left (Int.log 2 |x|) emin
      omega
    have hu := two_zpow_pos (lastBit p emin x)
    generalize (2 : Rat) ^ lastBit p emin x = u at *
    have hq : |x / u| < 2 ^ (p : Int) := by
      rw [abs_div, abs_of_pos hu, div_lt_iff₀ hu]; exact hlt
    rw [two_zpow_nat, abs_lt] at hq
    have h := abs_le.mp (roundEven_half (x / u))
    rw [abs_le]
    constructor
    · by_contra hc
      have : roundEven (x / u) + 1 ≤ -2 ^ p := by omega
      have : ((roundEven (x / u) : Int) : Rat) + 1 ≤ -((2 ^ p : Int) : Rat) := by exact_mod_cast this
      linarith
    · by_contra hc
      have : 2 ^ p + 1 ≤ roundEven (x / u) := by omega
      have : ((2 ^ p : Int) : Rat) + 1 ≤ ((roundEven (x / u) : Int) : Rat) := by exact_mod_cast this
      linarith
  · unfold lastBit
    have := le_max_right (Int.log 2 |x|) emin
    omega

theorem roundBits_fix (p : Nat) (hp : 0 < p) (emin : Int) (r : Rat) (hr : Representable p emin r) :
    roundBits p emin r = r := by
  have h := nearest p hp emin r r hr
  rw [sub_self, abs_zero] at h
  have := abs_nonpos_iff.mp h
  linarith

theorem roundBits_mono (p : Nat) (hp : 0 < p) (emin : Int) {x y : Rat} (h : x ≤ y) :
    roundBits p emin x ≤ roundBits p emin y := by
  rcases eq_or_lt_of_le h with rfl | h
  · exact le_refl _
  · by_contra hc
    have h1 := nearest p hp emin x _ (representable p emin y)
    have h2 := nearest p hp emin y _ (representable p emin x)
    generalize roundBits p emin x = a at *
    generalize roundBits p emin y = b at *
    have hc : b < a := not_le.mp hc
    have k1 : (a + b) / 2 ≤ x := by
      by_contra hx
      have hx : x < (a + b) / 2 := not_le.mp hx
      rw [abs_of_pos (by linarith : 0 < a - x)] at h1
      rcases abs_cases (b - x) with ⟨e, -⟩ | ⟨e, -⟩ <;> rw [e] at h1 <;> linarith
    have k2 : y ≤ (a + b) / 2 := by
      by_contra hy
      have hy : (a + b) / 2 < y := not_le.mp hy
      rw [abs_of_neg (by linarith : b - y < 0)] at h2
      rcases abs_cases (a - y) with ⟨e, -⟩ | ⟨e, -⟩ <;> rw [e] at h2 <;> linarith
    linarith

theorem roundBits_err (p : Nat) (emin : Int) (x : Rat) :
    |roundBits p emin x - x| ≤ |x| / 2 ^ p + 2 ^ (emin - p) := by
  have hu := two_zpow_pos (lastBit p emin x)
  have e1 : roundBits p emin x - x =
      (roundEven (x / 2 ^ lastBit p emin x) - x / 2 ^ lastBit p emin x) * 2 ^ lastBit p emin x := by
    unfold roundBits; field_simp
  have h1 : |roundBits p emin x - x| ≤ 1 / 2 * 2 ^ lastBit p emin x := by
    rw [e1, abs_mul, abs_of_pos hu]
    exact mul_le_mul_of_nonneg_right (roundEven_half _) (le_of_lt hu)
  have e2 : (1 : Rat) / 2 * 2 ^ lastBit p emin x = 2 ^ (max (Int.log 2 |x|) emin - p) := by
    have : (1 : Rat) / 2 = 2 ^ (-1 : Int) := by norm_num
    rw [this, ← two_zpow_add]
    congr 1
    unfold lastBit
    omega
  rw [e2] at h1
  have hp0 : (0 : Rat) < 2 ^ (emin - p) := two_zpow_pos _
  have hp1 : (0 : Rat) ≤ |x| / 2 ^ p := by positivity
  rcases le_total (Int.log 2 |x|) emin with h | h
  · rw [max_eq_right h] at h1
    linarith
  · rw [max_eq_left h] at h1
    by_cases hx : x = 0
    · subst hx
      rw [roundBits_zero]
      simp only [sub_self, abs_zero, zero_div]
      linarith
    · have hlog : (2 : Rat) ^ Int.log 2 |x| ≤ |x| :=
        Int.zpow_log_le_self (by norm_num) (abs_pos.mpr hx)
      have : (2 : Rat) ^ (Int.log 2 |x| - (p : Int)) ≤ |x| / 2 ^ p := by
        rw [zpow_sub₀ (by norm_num), zpow_natCast]
        exact div_le_div_of_nonneg_right hlog (by positivity)
      linarith

theorem representable_int (p : Nat) (emin : Int) (he : emin ≤ p - 1) (n : Int) (hn : |n| ≤ 2 ^ p) :
    Representable p emin n := ⟨n, 0, by simp, hn, by omega⟩

theorem representable_weaken {p p' : Nat} {emin emin' : Int} (hp : p ≤ p')
    (he : emin' - (p' - 1) ≤ emin - (p - 1)) {r : Rat} (h : Representable p emin r) :
    Representable p' emin' r := by
  obtain ⟨k, j, rfl, hk, hj⟩ := h
  exact ⟨k, j, rfl, le_trans hk (pow_le_pow_right₀ (by norm_num) hp), by omega⟩

/-- Floating point arithmetic with the rounding of IEEE 754: besides the laws of `FloatSem` a result
is a nearest `float`, and `float` numbers have 24 significant bits. -/
class FloatIeee extends FloatSem where
  f32_nearest : ∀ x y : Rat, |f32 x - x| ≤ |f32 y - x|
  f32_rep : ∀ k e : Int, |k| ≤ 2 ^ 24 → -149 ≤ e → f32 (k * 2 ^ e) = k * 2 ^ e
  f32_grid : ∀ (x : Rat) (e : Int), 2 ^ e ≤ |f32 x| → ∃ k : Int, f32 x = k * 2 ^ (e - 23)

/-- binary32 and binary64 satisfy the laws. `std::pow` is represented by a step function near
the powers of 10, which is only used to show that the assumptions made about it in C28 can be met. -/
@[reducible] def ieee : FloatIeee where
  f32 := roundBits 24 (-126)
  f64 := roundBits 53 (-1022)
  pow := fun _ b => (10023 / 10000) ^ ⌊1000 * b⌋
  f32_mono := fun _ _ h => roundBits_mono 24 (by norm_num) _ h
  f64_mono := fun _ _ h => roundBits_mono 53 (by norm_num) _ h
  f32_err := fun x _ => by
    have h := roundBits_err 24 (-126) x
    have e : (2 : Rat) ^ ((-126 : Int) - (24 : Nat)) = 1 / 2 ^ 150 := by norm_num
    rw [e] at h
    exact h
  f64_err := fun x _ => by
    have h := roundBits_err 53 (-1022) x
    have e : (2 : Rat) ^ ((-1022 : Int) - (53 : Nat)) = 1 / 2 ^ 1075 := by
      rw [show ((-1022 : Int) - (53 : Nat)) = -((1075 : Nat) : Int) by norm_num, zpow_neg,
        zpow_natCast, one_div]
    rw [e] at h
    exact h
  f32_int := fun n hn => roundBits_fix 24 (by norm_num) _ _ (representable_int 24 _ (by norm_num) n hn)
  f64_int := fun n hn => roundBits_fix 53 (by norm_num) _ _ (representable_int 53 _ (by norm_num) n hn)
  f32_idem := fun x => roundBits_fix 24 (by norm_num) _ _ (representable 24 _ x)
  f64_f32 := fun x => roundBits_fix 53 (by norm_num) _ _
    (representable_weaken (by norm_num) (by norm_num) (representable 24 _ x))
  f32_nearest := fun x y => nearest 24 (by norm_num) _ x _ (representable 24 _ y)
  f32_rep := fun k e hk he =>
    roundBits_fix 24 (by norm_num) _ _ ⟨k, e, rfl, hk, by push_cast; omega⟩
  f32_grid := fun x e h => by
    obtain ⟨k, j, he, hk, -⟩ := representable 24 (-126) x
    have hmul : ∀ (m i : Int), e - 23 ≤ i → ∃ k : Int, (m : Rat) * 2 ^ i = k * 2 ^ (e - 23) := by
      intro m i hi
      refine ⟨m * 2 ^ (i - (e - 23)).toNat, ?_⟩
      push_cast
      rw [mul_assoc, ← zpow_natCast, ← two_zpow_add]
      congr 2
      omega
    rw [he]
    by_cases hj : e - 23 ≤ j
    · exact hmul k j hj
    · rw [he, abs_mul, abs_of_pos (two_zpow_pos j)] at h
      have hk' : |(k : Rat)| ≤ 2 ^ (24 : Int) := by exact_mod_cast hk
      have h2 : |(k : Rat)| * 2 ^ j ≤ 2 ^ (24 + j) := by
        rw [two_zpow_add]
        exact mul_le_mul_of_nonneg_right hk' (le_of_lt (two_zpow_pos j))
      have h3 : (2 : Rat) ^ (24 + j) ≤ 2 ^ e := two_zpow_le (by omega)
      have h4 : |(k : Rat)| * 2 ^ j = 2 ^ e := le_antisymm (le_trans h2 h3) h
      rcases abs_cases (k : Rat) with ⟨e1, -⟩ | ⟨e1, -⟩
      · rw [e1] at h4
        rw [h4]
        simpa using hmul 1 e (by omega)
      · rw [e1] at h4
        have : (k : Rat) * 2 ^ j = ((-1 : Int) : Rat) * 2 ^ e := by push_cast; linarith
        rw [this]
        exact hmul (-1) e (by omega)

end Metaf
