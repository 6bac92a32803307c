import Verif.Model.Distance
import Verif.Spec.Miles
import Verif.Proofs.Decimal
import Verif.Proofs.Float
import Mathlib.Tactic.IntervalCases

/-!
C32 and C33: distances in miles. C34 and C35: directions. Texts of other distances and directions
(parts of C46 to C48).
-/

namespace Metaf.Props

open Metaf.Spec

set_option linter.unusedSectionVars false

variable [FloatSem]

/-! ### C32 -/

/-- Prefixes and the modifiers they stand for. -/
def MilePrefix (p : Str) (m : Modifier) : Prop :=
  p = [] ∧ m = .NONE ∨ p = ['P'] ∧ m = .MORE_THAN ∨ p = ['M'] ∧ m = .LESS_THAN

theorem mileText_head {t : Str} {q : Rat} (h : MileText t q) :
    ∃ c r, t = c :: r ∧ isDigit c = true := by
  have key : ∀ k n (u : Str), (k = 1 ∨ k = 2) → ∃ c r, decimal k n ++ u = c :: r ∧ isDigit c = true := by
    rintro k n u (rfl | rfl)
    · exact ⟨_, _, rfl, digitChar_isDigit (Nat.mod_lt _ (by omega))⟩
    · exact ⟨_, _, rfl, digitChar_isDigit (Nat.mod_lt _ (by omega))⟩
  rcases h with ⟨k, n, hk, -, rfl, -⟩ | ⟨i, j, a, b, hi, -, -, -, rfl, -⟩
  · simpa using key k n [] hk
  · exact key i a _ hi

/-- The part of the text after the prefix and before the unit. -/
theorem mile_body (p t u : Str) (hp : p.length = if (Distance.modifierFromChar (ch (p ++ t ++ u) 0)).isSome
      then 1 else 0) (hps : '/' ∉ p) (hus : '/' ∉ u) (d : Distance) :
    Distance.mileValue (p ++ t ++ u) u.length = some d ↔
      ∃ q, MileText t q ∧ d = ⟨(Distance.modifierFromChar (ch (p ++ t ++ u) 0)).getD .NONE,
        some ⌊q * 10000⌋₊, .STATUTE_MILES⟩ := by
  have hlen : (((p ++ t ++ u).length : Int) - u.length - p.length) = (t.length : Int) := by
    simp; omega
  have hpart : part (p ++ t ++ u) p.length t.length = t := by
    simp [part, List.append_assoc]
  have hfind : (findFrom (p ++ t ++ u) '/' 0).isNone = true ↔ '/' ∉ t := by
    rw [Option.isNone_iff_eq_none]
    constructor
    · intro h ht
      unfold findFrom at h
      split at h
      · simp only [Option.map_eq_none_iff, List.drop_zero, List.findIdx?_eq_none_iff] at h
        have := h '/' (by simp [ht])
        simp at this
      · rename_i hl
        have : t = [] := by
          have : t.length = 0 := by simp at hl; simp [hl]
          exact List.length_eq_zero_iff.mp this
        simp [this] at ht
    · intro h
      unfold findFrom
      split
      · simp only [Option.map_eq_none_iff, List.drop_zero, List.findIdx?_eq_none_iff]
        intro x hx
        simp only [List.mem_append] at hx
        simp only [beq_eq_false_iff_ne]
        rintro rfl
        rcases hx with (hx | hx) | hx <;> contradiction
      · rfl
  have hf : ∀ n : Nat, ⌊((n : Rat)) * 10000⌋₊ = n * 10000 := by
    intro n
    have : (n : Rat) * 10000 = ((n * 10000 : Nat) : Rat) := by push_cast; ring
    rw [this, Nat.floor_natCast]
  have hfr : ∀ a b : Nat, ⌊((a : Rat) / b) * 10000⌋₊ = a * 10000 / b := by
    intro a b
    have : (a : Rat) / b * 10000 = ((a * 10000 : Nat) : Rat) / (b : Nat) := by push_cast; ring
    rw [this, Nat.floor_div_natCast, Nat.floor_natCast]
  have hfi : ∀ i a b : Nat, ⌊((i : Rat) + (a : Rat) / b) * 10000⌋₊ = i * 10000 + a * 10000 / b := by
    intro i a b
    have : ((i : Rat) + (a : Rat) / b) * 10000 = ((a * 10000 : Nat) : Rat) / (b : Nat) + (i * 10000 : Nat) := by
      push_cast; ring
    rw [this, Nat.floor_add_natCast (by positivity), Nat.floor_div_natCast, Nat.floor_natCast]
    omega
  unfold Distance.mileValue
  simp only [← hp, hlen]
  generalize (Distance.modifierFromChar (ch (p ++ t ++ u) 0)).getD .NONE = m
  by_cases hs : '/' ∈ t
  · have h1 : ¬ (findFrom (p ++ t ++ u) '/' 0).isNone = true := by rw [hfind]; simpa using hs
    rw [if_neg h1]
    simp only [Int.toNat_natCast]
    constructor
    · intro h
      split at h
      · simp at h
      · rename_i a b hab
        obtain ⟨i, j, hi, hj, ha, hb, he⟩ := fraction_iff.mp hab
        rw [hpart] at he
        have ha2 : a < 100 := lt_of_lt_of_le ha (by rcases hi with rfl | rfl <;> omega)
        have hb2 : b < 100 := lt_of_lt_of_le hb (by rcases hj with rfl | rfl <;> omega)
        split at h
        · simp at h
        · rename_i h0
          simp only [Bool.or_eq_true, beq_iff_eq, not_or] at h0
          by_cases hge : b ≤ a
          · simp only [ge_iff_le, hge, if_true] at h
            split at h
            · simp at h
            · rename_i hz
              simp only [beq_iff_eq] at hz
              simp only [Option.some.injEq] at h
              refine ⟨(a / 10 : Nat) + (a % 10 : Nat) / b, Or.inr ⟨i, j, a, b, hi, hj, ha, hb, he,
                by omega, by omega, Or.inr ⟨hge, hz, rfl⟩⟩, ?_⟩
              rw [hfi, ← h]
              have : a % 10 * 10000 / b ≤ a % 10 * 10000 := Nat.div_le_self _ _
              simp only [wrap, uintRange, statuteMileFactor]
              rw [Nat.mod_eq_of_lt (by omega)]
          · simp only [ge_iff_le, hge, if_false] at h
            split at h
            · simp at h
            · simp only [Option.some.injEq] at h
              refine ⟨a / b, Or.inr ⟨i, j, a, b, hi, hj, ha, hb, he,
                by omega, by omega, Or.inl ⟨by omega, rfl⟩⟩, ?_⟩
              rw [hfr, ← h]
              have : a * 10000 / b ≤ a * 10000 := Nat.div_le_self _ _
              simp only [wrap, uintRange, statuteMileFactor]
              rw [Nat.mod_eq_of_lt (by omega)]
              simp
    · rintro ⟨q, hq, rfl⟩
      rcases hq with ⟨k, n, hk, hn, rfl, rfl⟩ | ⟨i, j, a, b, hi, hj, ha, hb, he, ha0, hb0, hq⟩
      · have := decimal_digits k n '/' hs
        simp [isDigit] at this
      · have ha2 : a < 100 := lt_of_lt_of_le ha (by rcases hi with rfl | rfl <;> omega)
        have hb2 : b < 100 := lt_of_lt_of_le hb (by rcases hj with rfl | rfl <;> omega)
        rw [fraction_iff.mpr ⟨i, j, hi, hj, ha, hb, by rw [hpart]; exact he⟩]
        simp only
        rw [if_neg (by simp; omega)]
        rcases hq with ⟨hlt, rfl⟩ | ⟨hge, hz, rfl⟩
        · simp only [ge_iff_le, show ¬ b ≤ a by omega, if_false]
          rw [if_neg (by simp; omega), hfr]
          have : a * 10000 / b ≤ a * 10000 := Nat.div_le_self _ _
          simp only [wrap, uintRange, statuteMileFactor]
          rw [Nat.mod_eq_of_lt (by omega)]
          simp
        · simp only [ge_iff_le, hge, if_true]
          rw [if_neg (by simpa using hz), hfi]
          have : a % 10 * 10000 / b ≤ a % 10 * 10000 := Nat.div_le_self _ _
          simp only [wrap, uintRange, statuteMileFactor]
          rw [Nat.mod_eq_of_lt (by omega)]
  · have h1 : (findFrom (p ++ t ++ u) '/' 0).isNone = true := by rw [hfind]; exact hs
    rw [if_pos h1]
    constructor
    · intro h
      split at h
      · simp at h
      · rename_i hl
        simp only [Bool.or_eq_true, decide_eq_true_eq, not_or, not_lt] at hl
        simp only [Int.toNat_natCast] at h
        split at h
        · simp at h
        · rename_i n hn
          rw [strToUint_iff (by omega) (by omega), hpart] at hn
          simp only [Option.some.injEq] at h
          refine ⟨n, Or.inl ⟨t.length, n, by omega, hn.2.1, hn.2.2, rfl⟩, ?_⟩
          have : n < 10 ^ 2 := lt_of_lt_of_le hn.2.1 (Nat.pow_le_pow_right (by omega) (by omega))
          rw [hf, ← h]
          simp only [wrap, uintRange, statuteMileFactor]
          rw [Nat.mod_eq_of_lt (by omega)]
    · rintro ⟨q, hq, rfl⟩
      rcases hq with ⟨k, n, hk, hn, ht, rfl⟩ | ⟨i, j, a, b, hi, hj, ha, hb, he, ha0, hb0, hq⟩
      · have hl : t.length = k := by rw [ht, decimal_length]
        have : n < 10 ^ 2 := lt_of_lt_of_le hn (Nat.pow_le_pow_right (by omega) (by omega))
        rw [if_neg (by rw [hl]; simp; omega)]
        simp only [Int.toNat_natCast]
        rw [(strToUint_iff (v := n) (by omega) (by omega)).mpr
          ⟨by simp, by rw [hl]; exact hn, by rw [hpart, hl]; exact ht⟩]
        simp only
        rw [hf]
        simp only [wrap, uintRange, statuteMileFactor]
        rw [Nat.mod_eq_of_lt (by omega)]
      · exact absurd (by rw [he]; simp) hs

/-- C32, text without unit. -/
theorem mileValue_iff (s u : Str) (hus : '/' ∉ u) (hu : Distance.modifierFromChar (ch u 0) = none)
    (d : Distance) :
    Distance.mileValue (s ++ u) u.length = some d ↔
      ∃ p t m q, s = p ++ t ∧ MilePrefix p m ∧ MileText t q ∧
        d = ⟨m, some ⌊q * 10000⌋₊, .STATUTE_MILES⟩ := by
  have hdig : ∀ (t : Str) (q : Rat) (v : Str), MileText t q →
      Distance.modifierFromChar (ch (t ++ v) 0) = none := by
    intro t q v h
    obtain ⟨c, r, rfl, hc⟩ := mileText_head h
    simp only [List.cons_append, ch, List.getD_cons_zero, Distance.modifierFromChar]
    rw [if_neg (by rintro rfl; simp [isDigit] at hc), if_neg (by rintro rfl; simp [isDigit] at hc)]
  have nomod : ∀ c : Char, c ≠ 'P' → c ≠ 'M' → Distance.modifierFromChar c = none := by
    intro c h1 h2
    simp [Distance.modifierFromChar, h1, h2]
  by_cases hm : Distance.modifierFromChar (ch (s ++ u) 0) = none
  · have := mile_body [] s u (by simp [hm]) (by simp) hus d
    simp only [List.nil_append, hm, Option.getD_none] at this
    rw [this]
    constructor
    · rintro ⟨q, hq, hd⟩
      exact ⟨[], s, .NONE, q, rfl, Or.inl ⟨rfl, rfl⟩, hq, hd⟩
    · rintro ⟨p, t, m, q, rfl, hp, hq, hd⟩
      rcases hp with ⟨rfl, rfl⟩ | ⟨rfl, rfl⟩ | ⟨rfl, rfl⟩
      · exact ⟨q, hq, hd⟩
      · simp [ch, Distance.modifierFromChar] at hm
      · simp [ch, Distance.modifierFromChar] at hm
  · cases s with
    | nil => exact absurd (by simpa using hu) hm
    | cons c t =>
      have hc : c = 'P' ∨ c = 'M' := by
        by_contra hc
        rw [not_or] at hc
        exact hm (nomod c hc.1 hc.2)
      have := mile_body [c] t u (by rcases hc with rfl | rfl <;> rfl)
        (by rcases hc with rfl | rfl <;> simp) hus d
      simp only [List.singleton_append] at this
      rw [this]
      have hmod : MilePrefix [c] ((Distance.modifierFromChar (ch (c :: t ++ u) 0)).getD .NONE) := by
        rcases hc with rfl | rfl
        · exact Or.inr (Or.inl ⟨rfl, rfl⟩)
        · exact Or.inr (Or.inr ⟨rfl, rfl⟩)
      constructor
      · rintro ⟨q, hq, hd⟩
        exact ⟨[c], t, _, q, rfl, hmod, hq, hd⟩
      · rintro ⟨p, t', m, q, hs, hp, hq, hd⟩
        rcases hp with ⟨rfl, rfl⟩ | ⟨rfl, rfl⟩ | ⟨rfl, rfl⟩
        · simp only [List.nil_append] at hs
          subst hs
          exact absurd (hdig _ q u hq) hm
        · simp only [List.singleton_append, List.cons.injEq] at hs
          obtain ⟨rfl, rfl⟩ := hs
          exact ⟨q, hq, hd⟩
        · simp only [List.singleton_append, List.cons.injEq] at hs
          obtain ⟨rfl, rfl⟩ := hs
          exact ⟨q, hq, hd⟩

/-- C32. The distances in miles recognised in the body of a report: an optional `P` or `M`, a whole
number or fraction and the unit; the stored value is the number of 1/10000 miles rounded down. -/
theorem C32_miles (s : Str) (d : Distance) :
    Distance.fromMileString s = some d ↔
      (s = c!"////SM" ∧ d = ⟨.NONE, none, .STATUTE_MILES⟩) ∨
      ∃ p t m q, s = p ++ t ++ c!"SM" ∧ MilePrefix p m ∧ MileText t q ∧
        d = ⟨m, some ⌊q * 10000⌋₊, .STATUTE_MILES⟩ := by
  have key := fun s' => mileValue_iff s' c!"SM" (by simp) rfl d
  unfold Distance.fromMileString
  simp only [Bool.not_false, if_true]
  constructor
  · intro h
    split at h
    · simp at h
    · split at h
      · simp only [Option.some.injEq] at h
        exact Or.inl ⟨by assumption, h.symm⟩
      · split at h
        · simp at h
        · rename_i hl hne hsm
          right
          have hs : s = s.take (s.length - 2) ++ c!"SM" := by
            have h1 : substr s (s.length - 2) 2 = c!"SM" := by simpa using hsm
            have h2 : s.drop (s.length - 2) = c!"SM" := by
              rw [substr, List.take_of_length_le (by simp; omega)] at h1
              exact h1
            rw [← h2, List.take_append_drop]
          rw [hs] at h
          obtain ⟨p, t, m, q, hst, hp, hq, hd⟩ := (key _).mp h
          exact ⟨p, t, m, q, by rw [← hst]; exact hs, hp, hq, hd⟩
  · rintro (⟨rfl, rfl⟩ | ⟨p, t, m, q, rfl, hp, hq, hd⟩)
    · rfl
    · obtain ⟨c, r, ht, hc⟩ := mileText_head hq
      have hlt : 1 ≤ t.length := by rw [ht]; simp
      rw [if_neg (by simp; omega), if_neg, if_neg]
      · exact (key _).mpr ⟨p, t, m, q, rfl, hp, hq, hd⟩
      · have : (p ++ t ++ c!"SM").length - 2 = (p ++ t).length := by
          rw [List.length_append (bs := c!"SM")]
          exact Nat.add_sub_cancel _ 2
        rw [this, substr, List.drop_left]
        simp
      · intro he
        have : p ++ t = c!"////" := by
          have h2 : p ++ t ++ c!"SM" = c!"////" ++ c!"SM" := he
          exact List.append_cancel_right h2
        rw [ht] at this
        rcases hp with ⟨rfl, rfl⟩ | ⟨rfl, rfl⟩ | ⟨rfl, rfl⟩
        · simp only [List.nil_append, List.cons.injEq] at this
          rw [this.1] at hc
          simp [isDigit] at hc
        · simp at this
        · simp at this

/-- C32. The distances in miles recognised in remarks, without unit. -/
theorem C32_miles_remark (s : Str) (d : Distance) :
    Distance.fromMileString s true = some d ↔
      ∃ p t m q, s = p ++ t ∧ MilePrefix p m ∧ MileText t q ∧
        d = ⟨m, some ⌊q * 10000⌋₊, .STATUTE_MILES⟩ := by
  have key := mileValue_iff s [] (by simp) rfl d
  simp only [List.append_nil, List.length_nil] at key
  rw [← key]
  unfold Distance.fromMileString
  simp only [Bool.not_true, Bool.false_eq_true, if_false]
  split
  · rename_i hl
    have : s = [] := List.length_eq_zero_iff.mp (by omega)
    subst this
    have : Distance.mileValue [] 0 = none := rfl
    rw [this]
  · rfl

omit [FloatSem] in
/-- C32. The fractions in use (halves, quarters, eighths, sixteenths) are stored without loss. -/
theorem C32_exact (q : Rat) (n : Nat) (h : q = n / 16) : ((⌊q * 10000⌋₊ : Nat) : Rat) = q * 10000 := by
  have : q * 10000 = ((625 * n : Nat) : Rat) := by subst h; push_cast; ring
  rw [this, Nat.floor_natCast]

omit [FloatSem] in
/-- C32. For any other fraction the stored value is less than 1/10000 mile below the value
written. -/
theorem C32_truncated {t : Str} {q : Rat} (h : MileText t q) :
    ((⌊q * 10000⌋₊ : Nat) : Rat) / 10000 ≤ q ∧ q < ((⌊q * 10000⌋₊ : Nat) : Rat) / 10000 + 1 / 10000 := by
  have hq : 0 ≤ q := by
    rcases h with ⟨k, n, -, -, -, rfl⟩ | ⟨i, j, a, b, -, -, -, -, -, -, -, ⟨-, rfl⟩ | ⟨-, -, rfl⟩⟩ <;>
      positivity
  have h1 := Nat.floor_le (show 0 ≤ q * 10000 by positivity)
  have h2 := Nat.lt_floor_add_one (q * 10000)
  constructor <;> linarith

/-- C32. A whole number of miles and a following fraction add up, and the modifier of the whole
number is kept. -/
theorem C32_sum (n a b : Nat) (m : Modifier) (hn : n < 100) (ha : 0 < a) (hab : a < b) (hb : b < 100)
    (hm : m = .NONE ∨ m = .MORE_THAN ∨ m = .LESS_THAN) :
    Distance.fromIntegerAndFraction ⟨m, some ⌊(n : Rat) * 10000⌋₊, .STATUTE_MILES⟩
        ⟨.NONE, some ⌊(a / b : Rat) * 10000⌋₊, .STATUTE_MILES⟩ =
      some ⟨m, some ⌊(n + a / b : Rat) * 10000⌋₊, .STATUTE_MILES⟩ := by
  have h1 : ⌊((n : Rat)) * 10000⌋₊ = n * 10000 := by
    have : (n : Rat) * 10000 = ((n * 10000 : Nat) : Rat) := by push_cast; ring
    rw [this, Nat.floor_natCast]
  have h2 : ⌊(a / b : Rat) * 10000⌋₊ = a * 10000 / b := by
    have : (a : Rat) / b * 10000 = ((a * 10000 : Nat) : Rat) / (b : Nat) := by push_cast; ring
    rw [this, Nat.floor_div_natCast, Nat.floor_natCast]
  have h3 : ⌊(n + a / b : Rat) * 10000⌋₊ = n * 10000 + a * 10000 / b := by
    have : ((n : Rat) + (a : Rat) / b) * 10000 =
        ((a * 10000 : Nat) : Rat) / (b : Nat) + (n * 10000 : Nat) := by push_cast; ring
    rw [this, Nat.floor_add_natCast (by positivity), Nat.floor_div_natCast, Nat.floor_natCast]
    omega
  have h4 : a * 10000 / b < 10000 := by
    rw [Nat.div_lt_iff_lt_mul (by omega)]; nlinarith
  have h5 : 0 < a * 10000 / b := Nat.div_pos (by omega) (by omega)
  unfold Distance.fromIntegerAndFraction
  rw [if_neg (by rcases hm with rfl | rfl | rfl <;> simp), if_neg (by simp)]
  simp only [h1, h2, h3]
  rw [if_neg (by simp only [statuteMileFactor, Bool.or_eq_true, bne_iff_ne, beq_iff_eq]; omega)]
  simp only [wrap, uintRange]
  rw [Nat.mod_eq_of_lt (by omega)]

/-- C32. Only a whole number of miles and a fraction of a mile without modifier are added. -/
theorem C32_sum_only (x y z : Distance) (h : Distance.fromIntegerAndFraction x y = some z) :
    x.distUnit = .STATUTE_MILES ∧ y.distUnit = .STATUTE_MILES ∧ z.distUnit = .STATUTE_MILES ∧
    y.distModifier = .NONE ∧ z.distModifier = x.distModifier ∧
    ∃ i f, x.dist = some i ∧ y.dist = some f ∧ i % 10000 = 0 ∧ f % 10000 ≠ 0 ∧
      (i + f < 2 ^ 32 → z.dist = some (i + f)) := by
  unfold Distance.fromIntegerAndFraction at h
  split at h
  · simp at h
  · split at h
    · simp at h
    · rename_i hu
      simp only [Bool.or_eq_true, bne_iff_ne, not_or, not_not] at hu
      split at h
      · rename_i i f hi hf
        split at h
        · simp at h
        · rename_i hmod
          simp only [statuteMileFactor, Bool.or_eq_true, bne_iff_ne, beq_iff_eq, not_or,
            not_not] at hmod
          simp only [Option.some.injEq] at h
          subst h
          refine ⟨hu.1.2, hu.2, rfl, hu.1.1, rfl, i, f, hi, hf, hmod.1, hmod.2, ?_⟩
          intro hlt
          simp only [wrap, uintRange]
          rw [Nat.mod_eq_of_lt (by omega)]
      · simp at h

example : Distance.fromMileString c!"P11/2SM" = some ⟨.MORE_THAN, some 15000, .STATUTE_MILES⟩ ∧
    Distance.fromMileString c!"1/3SM" = some ⟨.NONE, some 3333, .STATUTE_MILES⟩ ∧
    Distance.fromMileString c!"10/2SM" = none ∧ Distance.fromMileString c!"M10SM" =
      some ⟨.LESS_THAN, some 100000, .STATUTE_MILES⟩ ∧
    Distance.fromMileString c!"7/8" true = some ⟨.NONE, some 8750, .STATUTE_MILES⟩ ∧
    Distance.fromMileString c!"7/8" = none := by decide +kernel

example : MileText c!"11/2" (3 / 2) := by
  refine Or.inr ⟨2, 1, 11, 2, by simp, by simp, by simp, by simp, by decide, by simp, by simp,
    Or.inr ⟨by omega, by omega, by norm_num⟩⟩

/-! ### C33 -/

/-- The value of the fraction of a mile in sixteenths. -/
def sixteenths : MilesFraction → Nat
  | .NONE => 0 | .F_1_16 => 1 | .F_1_8 => 2 | .F_3_16 => 3 | .F_1_4 => 4 | .F_5_16 => 5
  | .F_3_8 => 6 | .F_1_2 => 8 | .F_5_8 => 10 | .F_3_4 => 12 | .F_7_8 => 14

/-- The value of a result of `miles` in sixteenths of a mile. -/
def milesValue (r : Nat × MilesFraction) : Nat := 16 * r.1 + sixteenths r.2

/-- The distance in miles as an exact number. -/
def exactMiles (d : Distance) : Option Rat :=
  d.dist.map fun (v : Nat) => match d.distUnit with
    | .METERS => (v : Rat) * 1000 / 1609344
    | .STATUTE_MILES => (v : Rat) / 10000
    | .FEET => (v : Rat) / 5280

theorem milesTable_large (n : Nat) (h : 48 ≤ n) :
    Distance.milesTable n = (if n / 16 > 15 then 5 * (n / 16 / 5) else n / 16, .NONE) := by
  unfold Distance.milesTable
  split <;> first | rfl | omega

theorem milesTable_spec (n : Nat) :
    ReportableMiles (milesValue (Distance.milesTable n)) ∧ milesValue (Distance.milesTable n) ≤ n := by
  by_cases h : n < 48
  · have : ∀ n < 48, (milesValue (Distance.milesTable n)) ∈
        [0, 1, 2, 3, 4, 5, 6, 8, 10, 12, 14, 16, 18, 20, 22, 24, 26, 28, 30, 32, 36, 40, 44] ∧
        milesValue (Distance.milesTable n) ≤ n := by decide
    exact ⟨Or.inl (this n h).1, (this n h).2⟩
  · rw [milesTable_large n (by omega)]
    simp only [milesValue, sixteenths]
    split
    · refine ⟨Or.inr (Or.inr ⟨n / 16 / 5, by omega, by omega⟩), by omega⟩
    · refine ⟨Or.inr (Or.inl ⟨n / 16, by omega, by omega, by omega⟩), by omega⟩

theorem milesTable_mono (n m : Nat) (h : n ≤ m) :
    milesValue (Distance.milesTable n) ≤ milesValue (Distance.milesTable m) := by
  by_cases hm : m < 48
  · have : ∀ m < 48, ∀ n ≤ m, milesValue (Distance.milesTable n) ≤
        milesValue (Distance.milesTable m) := by decide +kernel
    exact this m hm n h
  · rw [milesTable_large m (by omega)]
    by_cases hn : n < 48
    · have h1 : ∀ n < 48, milesValue (Distance.milesTable n) ≤ 44 := by decide
      have := h1 n hn
      generalize milesValue (Distance.milesTable n) = w at this
      simp only [milesValue, sixteenths]
      split <;> omega
    · rw [milesTable_large n (by omega)]
      simp only [milesValue, sixteenths]
      split <;> split <;> omega

theorem milesTable_fix (n : Nat) (h : ReportableMiles n) : milesValue (Distance.milesTable n) = n := by
  rcases h with h | ⟨k, h1, h2, rfl⟩ | ⟨k, h1, rfl⟩
  · have : ∀ n ∈ [0, 1, 2, 3, 4, 5, 6, 8, 10, 12, 14, 16, 18, 20, 22, 24, 26, 28, 30, 32, 36, 40, 44],
      milesValue (Distance.milesTable n) = n := by decide
    exact this n h
  · rw [milesTable_large _ (by omega)]
    simp only [milesValue, sixteenths]
    split <;> omega
  · rw [milesTable_large _ (by omega)]
    simp only [milesValue, sixteenths]
    split <;> omega

/-- C33. `miles` gives only the values of table 6-1. -/
theorem C33_reportable (d : Distance) (r : Nat × MilesFraction) (h : d.miles = some r) :
    ReportableMiles (milesValue r) := by
  unfold Distance.miles at h
  split at h
  · simp at h
  · simp only [Option.some.injEq] at h
    subst h
    exact (milesTable_spec _).1

/-- C33. `miles` gives a value exactly for distances with a value. -/
theorem C33_available (d : Distance) : d.miles.isSome = d.dist.isSome := by
  obtain ⟨m, v, u⟩ := d
  cases v <;> cases u <;> rfl

theorem roundHalfAway_mono {x y : Rat} (h0 : 0 ≤ x) (h : x ≤ y) :
    roundHalfAway x ≤ roundHalfAway y := by
  unfold roundHalfAway
  rw [if_neg (not_lt.mpr h0), if_neg (not_lt.mpr (h0.trans h))]
  exact Int.floor_mono (R := Rat) (add_le_add_left h (1 / 2))

/-- Conversion to miles preserves order. -/
theorem toMiles_mono (m m' : Modifier) (u : DistanceUnit) (v w : Nat) (h : v ≤ w) :
    ∃ x y, (⟨m, some v, u⟩ : Distance).toUnit .STATUTE_MILES = some x ∧
      (⟨m', some w, u⟩ : Distance).toUnit .STATUTE_MILES = some y ∧ 0 ≤ x ∧ x ≤ y := by
  have h1 : f32 (v : Rat) ≤ f32 (w : Rat) := FloatSem.f32_mono _ _ (by exact_mod_cast h)
  have h0 : 0 ≤ f32 (v : Rat) := f32_nonneg (by positivity)
  cases u
  · refine ⟨_, _, rfl, rfl, ?_, ?_⟩
    all_goals have hk : 0 ≤ f64 (1609347 / 1000) := f64_nonneg (by norm_num)
    · exact f32_nonneg (f64_nonneg (div_nonneg h0 hk))
    · exact FloatSem.f32_mono _ _ (FloatSem.f64_mono _ _ (div_le_div_of_nonneg_right h1 hk))
  · refine ⟨_, _, rfl, rfl, ?_, ?_⟩
    · exact f32_nonneg (div_nonneg h0 (by norm_num))
    · exact FloatSem.f32_mono _ _ (div_le_div_of_nonneg_right h1 (by norm_num))
  · refine ⟨_, _, rfl, rfl, ?_, ?_⟩
    all_goals have hk : 0 ≤ f64 5280 := f64_nonneg (by norm_num)
    · exact f32_nonneg (f64_nonneg (div_nonneg h0 hk))
    · exact FloatSem.f32_mono _ _ (FloatSem.f64_mono _ _ (div_le_div_of_nonneg_right h1 hk))

/-- C33. A larger distance never gives a smaller value. -/
theorem C33_mono (m m' : Modifier) (u : DistanceUnit) (v w : Nat) (h : v ≤ w)
    (r r' : Nat × MilesFraction) (hr : (⟨m, some v, u⟩ : Distance).miles = some r)
    (hr' : (⟨m', some w, u⟩ : Distance).miles = some r') : milesValue r ≤ milesValue r' := by
  obtain ⟨x, y, hx, hy, h0, hxy⟩ := toMiles_mono m m' u v w h
  unfold Distance.miles at hr hr'
  rw [hx] at hr
  rw [hy] at hr'
  simp only [Option.some.injEq] at hr hr'
  subst hr hr'
  apply milesTable_mono
  apply Int.toNat_le_toNat
  apply roundHalfAway_mono
  · exact f32_nonneg (by linarith)
  · exact FloatSem.f32_mono _ _ (by linarith)

/-- The result of the conversion to miles is close to the exact number of miles. -/
theorem toMiles_near (d : Distance) (q : Rat) (hq : exactMiles d = some q) (hb : q ≤ 200) :
    ∃ x, d.toUnit .STATUTE_MILES = some x ∧ 0 ≤ q ∧ |f32 (x * 16) - q * 16| ≤ 1 / 100 := by
  obtain ⟨m, v, u⟩ := d
  cases v with
  | none => simp [exactMiles] at hq
  | some v =>
    simp only [exactMiles, Option.map_some, Option.some.injEq] at hq
    have hv0 : (0 : Rat) ≤ v := by positivity
    have fin : ∀ x : Rat, 0 ≤ q → |x - q| ≤ 1 / 2000 → |f32 (x * 16) - q * 16| ≤ 1 / 100 := by
      intro x h0 h
      have h1 := mul_near h (near_self (16 : Rat)) (show |q| ≤ 200 by rw [abs_of_nonneg h0]; exact hb)
        (show |(16 : Rat)| ≤ 16 by norm_num)
      have h2 := f32_near 3200 h1 (by rw [abs_of_nonneg (by linarith)]; linarith) (by norm_num)
      exact le_trans h2 (by norm_num)
    cases u with
    | METERS =>
      simp only at hq
      have hv : (v : Rat) ≤ 322000 := by rw [← hq] at hb; linarith
      have hq0 : 0 ≤ q := by rw [← hq]; positivity
      refine ⟨_, rfl, hq0, fin _ hq0 ?_⟩
      have hvn : v ≤ 2 ^ 24 := by
        have : v ≤ 322000 := by exact_mod_cast hv
        omega
      simp only [Distance.metersToUnit, Speed.divLit, f32_nat hvn]
      have hk := f64_near (1609347 / 1000) (near_self _) (le_of_eq (abs_of_nonneg (by norm_num)))
        (by norm_num)
      generalize f64 (1609347 / 1000) = k at hk
      have hk' := abs_le.mp hk
      have hkpos : 1609 < k := by norm_num at hk'; linarith
      have hd : |v / k - q| ≤ 1 / 2500 := by
        rw [← hq, show (v : Rat) / k - v * 1000 / 1609344 = v * ((1609344 / 1000 - k) / (k * (1609344 / 1000))) by
          field_simp, abs_mul, abs_of_nonneg hv0, abs_div, abs_of_pos (show 0 < k * (1609344 / 1000) by positivity)]
        have h1 : |1609344 / 1000 - k| ≤ 31 / 10000 := by
          rw [abs_le]; norm_num at hk' ⊢; constructor <;> linarith
        have h2 : |1609344 / 1000 - k| / (k * (1609344 / 1000)) ≤ (31 / 10000) / (1609 * 1609) := by
          apply div_le_div₀ (by norm_num) h1 (by norm_num)
          nlinarith
        calc (v : Rat) * (|1609344 / 1000 - k| / (k * (1609344 / 1000)))
            ≤ 322000 * ((31 / 10000) / (1609 * 1609)) := by
              apply mul_le_mul hv h2 (by positivity) (by norm_num)
          _ ≤ 1 / 2500 := by norm_num
      have hqa : |q| ≤ 200 := by rw [abs_of_nonneg hq0]; exact hb
      have h3 := f64_near 200 hd hqa (by norm_num)
      have h4 := f32_near 200 h3 hqa (by norm_num)
      exact le_trans h4 (by norm_num)
    | STATUTE_MILES =>
      simp only at hq
      have hv : (v : Rat) ≤ 2000000 := by rw [← hq] at hb; linarith
      have hq0 : 0 ≤ q := by rw [← hq]; positivity
      refine ⟨_, rfl, hq0, fin _ hq0 ?_⟩
      have hvn : v ≤ 2 ^ 24 := by
        have : v ≤ 2000000 := by exact_mod_cast hv
        omega
      have hqa : |q| ≤ 200 := by rw [abs_of_nonneg hq0]; exact hb
      simp only [Distance.milesToUnit, f32_nat hvn]
      rw [hq]
      exact le_trans (f32_near 200 (near_self q) hqa (by norm_num)) (by norm_num)
    | FEET =>
      simp only at hq
      have hv : (v : Rat) ≤ 1056000 := by rw [← hq] at hb; linarith
      have hq0 : 0 ≤ q := by rw [← hq]; positivity
      refine ⟨_, rfl, hq0, fin _ hq0 ?_⟩
      have hvn : v ≤ 2 ^ 24 := by
        have : v ≤ 1056000 := by exact_mod_cast hv
        omega
      have hqa : |q| ≤ 200 := by rw [abs_of_nonneg hq0]; exact hb
      have hk : f64 (5280 : Rat) = 5280 := by simpa using f64_nat (n := 5280) (by norm_num)
      simp only [Distance.feetToUnit, Speed.divLit, f32_nat hvn, hk]
      rw [hq]
      have h3 := f64_near 200 (near_self q) hqa (by norm_num)
      have h4 := f32_near 200 h3 hqa (by norm_num)
      exact le_trans h4 (by norm_num)

/-- C33. The value given is never above the distance rounded to 1/16 mile (with 1/100 of 1/16 mile
of rounding error). -/
theorem C33_not_above (d : Distance) (q : Rat) (hq : exactMiles d = some q) (hb : q ≤ 200)
    (r : Nat × MilesFraction) (h : d.miles = some r) :
    (milesValue r : Rat) ≤ q * 16 + 1 / 2 + 1 / 100 := by
  obtain ⟨x, hx, h0, hn⟩ := toMiles_near d q hq hb
  unfold Distance.miles at h
  rw [hx] at h
  simp only [Option.some.injEq] at h
  subst h
  have h1 := (milesTable_spec (roundHalfAway (f32 (x * 16))).toNat).2
  generalize milesValue (Distance.milesTable (roundHalfAway (f32 (x * 16))).toNat) = w at h1
  have hn' := abs_le.mp hn
  generalize f32 (x * 16) = y at *
  have h2 : ((roundHalfAway y).toNat : Rat) ≤ q * 16 + 1 / 2 + 1 / 100 := by
    unfold roundHalfAway
    by_cases hy : y < 0
    · rw [if_pos hy]
      have : -(-y + 1 / 2).floor ≤ 0 := by
        have : 0 ≤ (-y + 1 / 2).floor := (Int.floor_nonneg (α := Rat)).mpr (by linarith)
        omega
      rw [Int.toNat_of_nonpos this]
      simp only [Nat.cast_zero]
      linarith
    · rw [if_neg hy]
      have h3 : 0 ≤ (y + 1 / 2).floor := (Int.floor_nonneg (α := Rat)).mpr (by linarith)
      have h4 : (((y + 1 / 2).floor : Int) : Rat) ≤ y + 1 / 2 := Int.floor_le _
      have h5 : (((y + 1 / 2).floor.toNat : Nat) : Rat) = (((y + 1 / 2).floor : Int) : Rat) := by
        exact_mod_cast Int.toNat_of_nonneg h3
      rw [h5]
      linarith
  have h3 : (w : Rat) ≤ ((roundHalfAway y).toNat : Rat) := by exact_mod_cast h1
  linarith

/-- C33. A distance of exactly a reportable value is given back as that value. -/
theorem C33_round_trip (d : Distance) (n : Nat) (hn : ReportableMiles n)
    (hq : exactMiles d = some (n / 16 : Rat)) (hb : n ≤ 3200) :
    ∃ r, d.miles = some r ∧ milesValue r = n := by
  have hb' : (n : Rat) / 16 ≤ 200 := by
    have : (n : Rat) ≤ 3200 := by exact_mod_cast hb
    linarith
  obtain ⟨x, hx, h0, hnear⟩ := toMiles_near d _ hq hb'
  refine ⟨_, by unfold Distance.miles; rw [hx], ?_⟩
  have : roundHalfAway (f32 (x * 16)) = (n : Int) := by
    apply round_near
    have : (n : Rat) / 16 * 16 = ((n : Int) : Rat) := by push_cast; ring
    rw [this] at hnear
    exact lt_of_le_of_lt hnear (by norm_num)
  rw [this, Int.toNat_natCast]
  exact milesTable_fix n hn

/-! ### C34 -/

/-- The eight octants clockwise from north. -/
def octant : Nat → Cardinal
  | 0 => .N | 1 => .NE | 2 => .E | 3 => .SE | 4 => .S | 5 => .SW | 6 => .W | _ => .NW

/-- Angle between two directions given in degrees from 0 to 360. -/
def angle (a b : Nat) : Nat :=
  let d := if a ≤ b then b - a else a - b
  min d (360 - d)

/-- C34. The cardinal direction of degrees up to 360 is the octant whose centre is nearest, that of
larger values is not reported. -/
theorem C34_nearest (d : Direction) (h : d.isValue = true) :
    (d.dirDegrees ≤ 360 → ∃ i < 8, d.cardinal = octant i ∧
      ∀ j < 8, j ≠ i → angle d.dirDegrees (45 * i) < angle d.dirDegrees (45 * j)) ∧
    (360 < d.dirDegrees → d.cardinal = .NOT_REPORTED) := by
  have hc : ∀ b, d.cardinal b = Direction.cardinalOfDegrees d.dirDegrees b := by
    intro b
    obtain ⟨n, t⟩ := d
    cases t <;> first | rfl | (simp [Direction.isValue] at h)
  rw [hc]
  constructor
  · intro hd
    have : ∀ n ≤ 360, ∃ i < 8, Direction.cardinalOfDegrees n false = octant i ∧
      ∀ j < 8, j ≠ i → angle n (45 * i) < angle n (45 * j) := by decide +kernel
    exact this _ hd
  · intro hd
    simp only [Direction.cardinalOfDegrees, Bool.false_and, Bool.false_eq_true, if_false]
    repeat rw [if_neg (by omega)]

/-- C34. The exact directions are given only when asked for, and then exactly for 90, 180, 270 and
360 degrees; every other value gives the octant. -/
theorem C34_exact (d : Direction) (h : d.isValue = true) :
    d.cardinal true = (if d.dirDegrees = 360 then .TRUE_N else if d.dirDegrees = 180 then .TRUE_S
      else if d.dirDegrees = 270 then .TRUE_W else if d.dirDegrees = 90 then .TRUE_E
      else d.cardinal false) ∧
    d.cardinal false ∉ [.TRUE_N, .TRUE_S, .TRUE_W, .TRUE_E] := by
  have hc : ∀ b, d.cardinal b = Direction.cardinalOfDegrees d.dirDegrees b := by
    intro b
    obtain ⟨n, t⟩ := d
    cases t <;> first | rfl | (simp [Direction.isValue] at h)
  rw [hc, hc]
  constructor
  · simp only [Direction.cardinalOfDegrees, Bool.true_and, beq_iff_eq, Bool.false_and,
      Bool.false_eq_true, if_false]
  · simp only [Direction.cardinalOfDegrees, Bool.false_and, Bool.false_eq_true, if_false]
    repeat' split
    all_goals decide

/-- C34. Directions without a value keep their kind. -/
theorem C34_other (d : Direction) (b : Bool) (h : d.isValue = false) :
    d.cardinal b ∈ [.NOT_REPORTED, .VRB, .NDV, .OHD, .ALQDS, .UNKNOWN] := by
  obtain ⟨n, t⟩ := d
  cases t <;> first | (simp [Direction.isValue] at h; done) | simp [Direction.cardinal]

example : (⟨337, .VALUE_DEGREES⟩ : Direction).cardinal = .NW ∧
    (⟨338, .VALUE_DEGREES⟩ : Direction).cardinal = .N ∧
    (⟨0, .VALUE_DEGREES⟩ : Direction).cardinal true = .N ∧
    (⟨270, .VALUE_CARDINAL⟩ : Direction).cardinal true = .TRUE_W := by decide

/-! ### C35 -/

/-- The octants clockwise from number `i` to number `j`, both included. -/
def sweep (i j : Nat) : List Cardinal :=
  (List.range ((j + 8 - i) % 8 + 1)).map fun k => octant ((i + k) % 8)

/-- C35, for directions that are octants: the enumeration ends and lists the octants clockwise. -/
theorem C35_sector_partial (a b : Direction) (ha : a.isValue = true) (hb : b.isValue = true)
    (ha' : a.dirDegrees ≤ 360) (hb' : b.dirDegrees ≤ 360) :
    ∃ i j v, i < 8 ∧ j < 8 ∧ a.cardinal = octant i ∧ b.cardinal = octant j ∧
      (∀ fuel, 8 ≤ fuel → Direction.sectorCardinalDirToVector fuel a b = some v) ∧
      v.map (·.cardinal) = sweep i j ∧ (sweep i j).Nodup ∧ v.length ≤ 8 ∧
      ∀ x ∈ v, x.isValue = true := by
  obtain ⟨i, hi, hai, -⟩ := (C34_nearest a ha).1 ha'
  obtain ⟨j, hj, hbj, -⟩ := (C34_nearest b hb).1 hb'
  have loop : ∀ n v curr acc t, Direction.sectorLoop t n curr acc = some v → ∀ fuel, n ≤ fuel →
      Direction.sectorLoop t fuel curr acc = some v := by
    intro n
    induction n with
    | zero => intro v curr acc t h; simp [Direction.sectorLoop] at h
    | succ n ih =>
      intro v curr acc t h fuel hf
      obtain ⟨fuel, rfl⟩ : ∃ f, fuel = f + 1 := ⟨fuel - 1, by omega⟩
      simp only [Direction.sectorLoop] at h ⊢
      split
      · rename_i hc
        rw [if_pos hc] at h
        exact h
      · rename_i hc
        rw [if_neg hc] at h
        exact ih _ _ _ _ h fuel (by omega)
  have fin : ∀ i < 8, ∀ j < 8, ∃ v, Direction.sectorLoop (octant j) 8 (octant i) [] = some v ∧
      v.map (·.cardinal) = sweep i j ∧ (sweep i j).Nodup ∧ v.length ≤ 8 ∧
      ∀ x ∈ v, x.isValue = true := by
    intro i hi j hj
    refine ⟨(sweep i j).map Direction.ofCardinal, ?_⟩
    have : ∀ i < 8, ∀ j < 8,
        Direction.sectorLoop (octant j) 8 (octant i) [] = some ((sweep i j).map Direction.ofCardinal) ∧
        ((sweep i j).map Direction.ofCardinal).map (·.cardinal) = sweep i j ∧ (sweep i j).Nodup ∧
        ((sweep i j).map Direction.ofCardinal).length ≤ 8 ∧
        ∀ x ∈ (sweep i j).map Direction.ofCardinal, x.isValue = true := by decide +kernel
    exact this i hi j hj
  obtain ⟨v, hv, h1, h2, h3, h4⟩ := fin i hi j hj
  refine ⟨i, j, v, hi, hj, hai, hbj, ?_, h1, h2, h3, h4⟩
  intro fuel hf
  have hno : ∀ i < 8, Direction.notASector (octant i) = false := by decide
  unfold Direction.sectorCardinalDirToVector
  simp only [hai, hbj, hno i hi, hno j hj, Bool.or_self, Bool.false_eq_true, if_false]
  exact loop 8 v _ _ _ hv fuel hf

/-- C35, for the other directions: if one end is not an octant (variable, no direction, overhead,
all quadrants, not reported) the enumeration ends with at most the two directions given. -/
theorem C35_other_partial (a b : Direction)
    (h : a.cardinal ∈ [Cardinal.NOT_REPORTED, .VRB, .NDV, .OHD, .ALQDS] ∨
      b.cardinal ∈ [Cardinal.NOT_REPORTED, .VRB, .NDV, .OHD, .ALQDS]) :
    ∃ v, (∀ fuel, Direction.sectorCardinalDirToVector fuel a b = some v) ∧
      v.map (·.cardinal) = [a.cardinal, b.cardinal].filter (· ≠ .NOT_REPORTED) := by
  have hn : (Direction.notASector a.cardinal || Direction.notASector b.cardinal) = true := by
    have key : ∀ c : Cardinal, c ∈ [Cardinal.NOT_REPORTED, .VRB, .NDV, .OHD, .ALQDS] →
        Direction.notASector c = true := by decide +revert
    rw [Bool.or_eq_true]
    exact h.imp (key _) (key _)
  have hof : ∀ d : Direction, (Direction.ofCardinal d.cardinal).cardinal = d.cardinal := by
    intro d
    have key : ∀ c : Cardinal, c ∉ [Cardinal.TRUE_N, .TRUE_S, .TRUE_W, .TRUE_E] →
        (Direction.ofCardinal c).cardinal = c := by
      intro c hc
      cases c <;> first | rfl | simp at hc
    apply key
    cases hv : d.isValue with
    | true => exact (C34_exact d hv).2
    | false =>
      have := C34_other d false hv
      intro h2
      generalize d.cardinal false = c at *
      cases c <;> simp at this h2
  refine ⟨_, fun fuel => by unfold Direction.sectorCardinalDirToVector; simp only [hn, if_true]; rfl, ?_⟩
  simp only [List.map_append, List.filter_cons, List.filter_nil, bne_iff_ne, ne_eq, decide_not,
    Bool.not_eq_eq_eq_not, Bool.not_true, decide_eq_false_iff_not]
  split <;> split <;> simp_all

/-- C35 is false in the code: the enumeration does not end if exactly one end is the unknown
direction and the other one is an octant. -/
theorem C35_violated : ∃ a b : Direction, a.isReported = true ∧ b.isReported = true ∧
    ∀ fuel, Direction.sectorCardinalDirToVector fuel a b = none := by
  refine ⟨⟨0, .UNKNOWN⟩, ⟨360, .VALUE_CARDINAL⟩, rfl, rfl, ?_⟩
  have loop : ∀ fuel acc, Direction.sectorLoop .N fuel .NOT_REPORTED acc = none := by
    intro fuel
    induction fuel with
    | zero => intro acc; rfl
    | succ n ih =>
      intro acc
      simp only [Direction.sectorLoop]
      rw [if_neg (by decide)]
      exact ih _
  intro fuel
  show Direction.sectorLoop .N fuel .UNKNOWN [] = none
  cases fuel with
  | zero => rfl
  | succ n =>
    simp only [Direction.sectorLoop]
    rw [if_neg (by decide)]
    exact loop n _

example : (Direction.sectorCardinalDirToVector 8 ⟨225, .VALUE_CARDINAL⟩ ⟨45, .VALUE_CARDINAL⟩).map
    (·.map (·.cardinal)) = some [.SW, .W, .NW, .N, .NE] := by decide

end Metaf.Props
