import Verif.Spec.Decimal
import Verif.Proofs.Regex
import Mathlib.Tactic.IntervalCases
import Mathlib.Data.List.Induction

/-!
Decimal numbers and the number scanners.
-/

namespace Metaf

open Spec

theorem digitChar_isDigit {n : Nat} (h : n < 10) : isDigit (Nat.digitChar n) = true := by
  interval_cases n <;> rfl

theorem digitVal_digitChar {n : Nat} (h : n < 10) : digitVal (Nat.digitChar n) = n := by
  interval_cases n <;> rfl

theorem isDigit_iff {c : Char} : isDigit c = true ↔ ∃ n < 10, c = Nat.digitChar n := by
  constructor
  · intro h
    simp only [isDigit, Bool.and_eq_true, decide_eq_true_eq] at h
    have h48 : '0'.toNat = 48 := rfl
    have h57 : '9'.toNat = 57 := rfl
    rw [h48, h57] at h
    refine ⟨c.toNat - 48, by omega, ?_⟩
    apply Char.toNat_inj.mp
    obtain ⟨h1, h2⟩ := h
    generalize c.toNat = m at h1 h2
    interval_cases m <;> rfl
  · rintro ⟨n, hn, rfl⟩
    exact digitChar_isDigit hn

theorem digitVal_lt {c : Char} (h : isDigit c = true) : digitVal c < 10 := by
  obtain ⟨n, hn, rfl⟩ := isDigit_iff.mp h
  rw [digitVal_digitChar hn]; exact hn

theorem digitChar_digitVal {c : Char} (h : isDigit c = true) : Nat.digitChar (digitVal c) = c := by
  obtain ⟨n, hn, rfl⟩ := isDigit_iff.mp h
  rw [digitVal_digitChar hn]

theorem decimal_length (k n : Nat) : (decimal k n).length = k := by
  induction k generalizing n with
  | zero => rfl
  | succ k ih => simp [decimal, ih]

theorem decimal_digits (k n : Nat) : ∀ c ∈ decimal k n, isDigit c = true := by
  induction k generalizing n with
  | zero => simp [decimal]
  | succ k ih =>
    intro c hc
    simp only [decimal, List.mem_append, List.mem_singleton] at hc
    rcases hc with hc | rfl
    · exact ih _ c hc
    · exact digitChar_isDigit (by omega)

theorem decimal_inj {k n m : Nat} (hn : n < 10 ^ k) (hm : m < 10 ^ k)
    (h : decimal k n = decimal k m) : n = m := by
  induction k generalizing n m with
  | zero => simp at hn hm; omega
  | succ k ih =>
    simp only [decimal] at h
    obtain ⟨h1, h2⟩ := List.append_inj' h rfl
    simp only [List.cons.injEq, and_true] at h2
    have := ih (by rw [pow_succ] at hn; omega) (by rw [pow_succ] at hm; omega) h1
    have h3 : n % 10 = m % 10 := by
      rw [← digitVal_digitChar (n := n % 10) (by omega), h2, digitVal_digitChar (by omega)]
    omega

/-- Every text made of digits is the decimal form of a number. -/
theorem digits_decimal (s : Str) (h : ∀ c ∈ s, isDigit c = true) :
    ∃ n, n < 10 ^ s.length ∧ s = decimal s.length n := by
  induction s using List.reverseRecOn with
  | nil => exact ⟨0, by simp, rfl⟩
  | append_singleton s c ih =>
    obtain ⟨n, hn, hs⟩ := ih (fun x hx => h x (by simp [hx]))
    have hc := h c (by simp)
    have := digitVal_lt hc
    refine ⟨n * 10 + digitVal c, ?_, ?_⟩
    · rw [List.length_append, List.length_singleton, pow_succ]; omega
    · simp only [List.length_append, List.length_singleton, decimal]
      rw [show (n * 10 + digitVal c) / 10 = n by omega,
        show (n * 10 + digitVal c) % 10 = digitVal c by omega, digitChar_digitVal hc, ← hs]

theorem scanUint_append (s t : Str) (v : Nat) :
    scanUint (s ++ t) v = (scanUint s v).bind (scanUint t) := by
  induction s generalizing v with
  | nil => rfl
  | cons c s ih =>
    simp only [List.cons_append, scanUint]
    split
    · exact ih _
    · rfl

theorem scanUint_decimal (k n : Nat) (hn : n < 10 ^ k) :
    scanUint (decimal k n) 0 = some (n % uintRange) := by
  induction k generalizing n with
  | zero => simp at hn; subst hn; rfl
  | succ k ih =>
    rw [decimal, scanUint_append, ih _ (by rw [pow_succ] at hn; omega)]
    simp only [Option.bind_some, scanUint, digitChar_isDigit (Nat.mod_lt n (by omega)), if_true,
      digitVal_digitChar (Nat.mod_lt n (by omega)), wrap, uintRange]
    congr 1
    omega

theorem scanUint_some {s : Str} {v n : Nat} (h : scanUint s v = some n) :
    ∀ c ∈ s, isDigit c = true := by
  induction s generalizing v with
  | nil => simp
  | cons c s ih =>
    simp only [scanUint] at h
    split at h
    · rename_i hc
      intro x hx
      rcases List.mem_cons.mp hx with rfl | hx
      · exact hc
      · exact ih h x hx
    · simp at h

/-- `strToUint` on any text. -/
theorem strToUint_wrap {s : Str} {p k v : Nat} :
    strToUint s p k = some v ↔
      0 < k ∧ p + k ≤ s.length ∧ ∃ n, n < 10 ^ k ∧ part s p k = decimal k n ∧ v = n % uintRange := by
  unfold strToUint
  by_cases hc : (s.isEmpty || k == 0 || decide (p + k > s.length)) = true
  · rw [if_pos hc]
    simp only [Bool.or_eq_true, List.isEmpty_iff, beq_iff_eq, decide_eq_true_eq] at hc
    constructor
    · simp
    · rintro ⟨h1, h2, -⟩
      rcases hc with (rfl | hc) | hc
      · simp at h2; omega
      · omega
      · omega
  · rw [if_neg hc]
    simp only [Bool.or_eq_true, List.isEmpty_iff, beq_iff_eq, decide_eq_true_eq, not_or] at hc
    have hl : (part s p k).length = k := by simp [part]; omega
    constructor
    · intro h
      obtain ⟨n, hn, hs⟩ := digits_decimal _ (scanUint_some h)
      rw [show substr s p k = part s p k from rfl, hl] at hn hs
      refine ⟨by omega, by omega, n, hn, hs, ?_⟩
      rw [show substr s p k = part s p k from rfl, hs, scanUint_decimal k n hn] at h
      simpa using h.symm
    · rintro ⟨-, -, n, hn, hs, rfl⟩
      rw [show substr s p k = part s p k from rfl, hs, scanUint_decimal k n hn]

/-- `strToUint` on at most nine digits. -/
theorem strToUint_iff {s : Str} {p k v : Nat} (h0 : 0 < k) (h9 : k ≤ 9) :
    strToUint s p k = some v ↔ p + k ≤ s.length ∧ v < 10 ^ k ∧ part s p k = decimal k v := by
  rw [strToUint_wrap]
  have hr : 10 ^ k < uintRange := by
    calc 10 ^ k ≤ 10 ^ 9 := Nat.pow_le_pow_right (by omega) h9
      _ < uintRange := by decide
  constructor
  · rintro ⟨-, h, n, hn, hs, rfl⟩
    rw [Nat.mod_eq_of_lt (by omega)]
    exact ⟨h, hn, hs⟩
  · rintro ⟨h1, h2, h3⟩
    exact ⟨h0, h1, v, h2, h3, by rw [Nat.mod_eq_of_lt (by omega)]⟩

theorem strToUint_none {s : Str} {p k : Nat} (h0 : 0 < k) (h9 : k ≤ 9)
    (h : strToUint s p k = none) : ¬ ∃ v, p + k ≤ s.length ∧ v < 10 ^ k ∧ part s p k = decimal k v := by
  rintro ⟨v, hv⟩
  rw [(strToUint_iff h0 h9).mpr hv] at h
  simp at h

theorem part_append (s : Str) (p a b : Nat) :
    part s p (a + b) = part s p a ++ part s (p + a) b := by
  simp only [part]
  rw [List.take_add, List.drop_drop]

theorem part_length {s : Str} {p k : Nat} (h : p + k ≤ s.length) : (part s p k).length = k := by
  simp [part]; omega

theorem part_clip (s : Str) (p k : Nat) : part s p k = part s p (min k (s.length - p)) := by
  simp only [part]
  by_cases h : k ≤ s.length - p
  · rw [Nat.min_eq_left h]
  · rw [Nat.min_eq_right (by omega), List.take_of_length_le (by simp; omega),
      List.take_of_length_le (by simp)]

theorem part_one {s : Str} {p : Nat} (h : p < s.length) : part s p 1 = [s[p]] := by
  simp only [part]
  rw [List.drop_eq_getElem_cons h]
  rfl

theorem isDigit_ne {c : Char} (h : isDigit c = true) : c ≠ '/' := by
  rintro rfl
  simp [isDigit] at h

theorem findFrom_some {s : Str} {c : Char} {p k : Nat} :
    findFrom s c p = some k ↔ ∃ h : k < s.length, p ≤ k ∧ s[k] = c ∧ c ∉ part s p (k - p) := by
  unfold findFrom
  split
  · rename_i hp
    simp only [Option.map_eq_some_iff, List.findIdx?_eq_some_iff_getElem]
    constructor
    · rintro ⟨i, ⟨hi, h1, h2⟩, rfl⟩
      simp only [List.length_drop] at hi
      refine ⟨by omega, by omega, ?_, ?_⟩
      · simpa [Nat.add_comm] using h1
      · intro hc
        simp only [part, Nat.add_sub_cancel] at hc
        obtain ⟨j, hj, he⟩ := List.getElem_of_mem hc
        simp only [List.length_take, List.length_drop] at hj
        have := h2 j (by omega)
        simp only [List.getElem_take] at he
        simp [he] at this
    · rintro ⟨hk, hp, h1, h2⟩
      refine ⟨k - p, ⟨by simp; omega, ?_, ?_⟩, by omega⟩
      · simp only [List.getElem_drop, beq_iff_eq]
        rw [← h1]
        congr 1
        omega
      · intro j hj he
        apply h2
        simp only [part]
        simp only [List.getElem_drop, beq_iff_eq] at he
        rw [← he]
        rw [List.mem_take_iff_getElem]
        refine ⟨j, by simp; omega, by simp⟩
  · constructor
    · simp
    · rintro ⟨h1, h2, -⟩; omega

/-- `fractionStrToUint` on any text. -/
theorem fraction_iff {s : Str} {p len a b : Nat} :
    fractionStrToUint s p len = some (a, b) ↔
      ∃ i j, (i = 1 ∨ i = 2) ∧ (j = 1 ∨ j = 2) ∧ a < 10 ^ i ∧ b < 10 ^ j ∧
        part s p len = decimal i a ++ '/' :: decimal j b := by
  have hlen : (if len + p > s.length then s.length - p else len) = min len (s.length - p) := by
    split <;> omega
  simp only [fractionStrToUint, hlen]
  rw [part_clip]
  generalize hl : min len (s.length - p) = l
  have hle : l ≤ s.length - p := by omega
  clear hl hlen
  constructor
  · intro h
    split at h
    · simp at h
    · rename_i k hk
      obtain ⟨hkl, hpk, hs, -⟩ := findFrom_some.mp hk
      split at h
      · simp at h
      · rename_i hn
        split at h
        · simp at h
        · rename_i hd
          split at h
          · rename_i a' b' ha hb
            simp only [Option.some.injEq, Prod.mk.injEq] at h
            obtain ⟨rfl, rfl⟩ := h
            simp only [Bool.or_eq_true, decide_eq_true_eq, not_or, not_lt] at hn hd
            obtain ⟨i, rfl⟩ : ∃ i, k = p + i := ⟨k - p, by omega⟩
            obtain ⟨j, rfl⟩ : ∃ j, l = i + (1 + j) := ⟨l - (i + 1), by omega⟩
            have e1 : (((p + i : Nat) : Int) - (p : Int)).toNat = i := by omega
            have e2 : (((p + i : Nat) : Int) + 1).toNat = p + i + 1 := by omega
            have e3 : (((p : Nat) : Int) + ((i + (1 + j) : Nat) : Int) - (((p + i : Nat) : Int) + 1)).toNat = j := by
              omega
            rw [e1] at ha
            rw [e2, e3] at hb
            rw [strToUint_iff (by omega) (by omega)] at ha hb
            refine ⟨i, j, by omega, by omega, ha.2.1, hb.2.1, ?_⟩
            rw [part_append, part_append, ha.2.2, part_one hkl, hs, hb.2.2]
            rfl
          · simp at h
  · rintro ⟨i, j, hi, hj, ha, hb, he⟩
    have hl : l = i + (1 + j) := by
      have h1 := congrArg List.length he
      rw [List.length_append, List.length_cons, decimal_length, decimal_length] at h1
      by_cases hp : p + l ≤ s.length
      · rw [part_length hp] at h1; omega
      · have : l = 0 := by omega
        subst this
        simp [part] at h1
    subst hl
    have hsl : p + (i + (1 + j)) ≤ s.length := by omega
    rw [part_append, part_append] at he
    obtain ⟨h1, h2⟩ := List.append_inj he (by rw [part_length (by omega), decimal_length])
    rw [part_one (by omega)] at h2
    simp only [List.cons_append, List.nil_append, List.cons.injEq] at h2
    have hk : findFrom s '/' p = some (p + i) := by
      rw [findFrom_some]
      refine ⟨by omega, by omega, h2.1, ?_⟩
      rw [Nat.add_sub_cancel_left, h1]
      intro hc
      exact isDigit_ne (decimal_digits i a _ hc) rfl
    rw [hk]
    have e1 : (((p + i : Nat) : Int) - (p : Int)).toNat = i := by omega
    have e2 : (((p + i : Nat) : Int) + 1).toNat = p + i + 1 := by omega
    have e3 : (((p : Nat) : Int) + ((i + (1 + j) : Nat) : Int) - (((p + i : Nat) : Int) + 1)).toNat = j := by
      omega
    simp only [e1, e2, e3]
    rw [if_neg (by simp; omega), if_neg (by simp; omega),
      (strToUint_iff (by omega) (by omega)).mpr ⟨by omega, ha, h1⟩,
      (strToUint_iff (by omega) (by omega)).mpr ⟨by omega, hb, h2.2⟩]

end Metaf

namespace Metaf

open Spec

theorem digitChar_ne {n : Nat} {c : Char} (h : isDigit c = false) (hn : n < 10) :
    Nat.digitChar n ≠ c := by
  rintro rfl
  rw [digitChar_isDigit hn] at h
  simp at h

theorem decimal_one (n : Nat) : decimal 1 n = [Nat.digitChar (n % 10)] := rfl

theorem decimal_two (n : Nat) :
    decimal 2 n = [Nat.digitChar (n / 10 % 10), Nat.digitChar (n % 10)] := rfl

theorem decimal_three (n : Nat) : decimal 3 n =
    [Nat.digitChar (n / 10 / 10 % 10), Nat.digitChar (n / 10 % 10), Nat.digitChar (n % 10)] := rfl

theorem decimal_four (n : Nat) : decimal 4 n =
    [Nat.digitChar (n / 10 / 10 / 10 % 10), Nat.digitChar (n / 10 / 10 % 10),
      Nat.digitChar (n / 10 % 10), Nat.digitChar (n % 10)] := rfl

theorem length_two {s : Str} (h : s.length = 2) : ∃ a b, s = [a, b] := by
  match s, h with
  | [a, b], _ => exact ⟨a, b, rfl⟩

theorem length_three {s : Str} (h : s.length = 3) : ∃ a b c, s = [a, b, c] := by
  match s, h with
  | [a, b, c], _ => exact ⟨a, b, c, rfl⟩

theorem length_four {s : Str} (h : s.length = 4) : ∃ a b c d, s = [a, b, c, d] := by
  match s, h with
  | [a, b, c, d], _ => exact ⟨a, b, c, d, rfl⟩

theorem length_five {s : Str} (h : s.length = 5) : ∃ a b c d e, s = [a, b, c, d, e] := by
  match s, h with
  | [a, b, c, d, e], _ => exact ⟨a, b, c, d, e, rfl⟩

theorem length_six {s : Str} (h : s.length = 6) : ∃ a b c d e f, s = [a, b, c, d, e, f] := by
  match s, h with
  | [a, b, c, d, e, f], _ => exact ⟨a, b, c, d, e, f, rfl⟩

end Metaf

namespace Metaf

open Spec

theorem strToUint_cons (a : Char) (s : Str) (p k : Nat) :
    strToUint (a :: s) (p + 1) k = strToUint s p k := by
  unfold strToUint
  have h : (substr (a :: s) (p + 1) k) = substr s p k := rfl
  rw [h]
  congr 1
  cases s with
  | nil =>
    simp only [List.isEmpty_cons, List.isEmpty_nil, List.length_cons, List.length_nil, eq_iff_iff]
    simp
    omega
  | cons b s =>
    simp
    omega

theorem strToUint_append {s : Str} (t : Str) {p k : Nat} (h : p + k ≤ s.length) :
    strToUint (s ++ t) p k = strToUint s p k := by
  unfold strToUint
  have h : (substr (s ++ t) p k) = substr s p k := by
    unfold substr
    rw [List.drop_append_of_le_length (by omega), List.take_append_of_le_length (by simp; omega)]
  rw [h]
  congr 1
  cases s with
  | nil =>
    have : k = 0 := by simp at *; omega
    simp [this]
  | cons b s =>
    simp at *
    omega

theorem strToUint_whole {s : Str} {k n : Nat} (h0 : 0 < k) (h9 : k ≤ 9) (hk : s.length = k) :
    strToUint s 0 k = some n ↔ n < 10 ^ k ∧ s = decimal k n := by
  rw [strToUint_iff h0 h9]
  have : part s 0 k = s := by simp [part, ← hk]
  rw [this]
  simp [hk]

theorem strToUint_decimal {k n : Nat} (h0 : 0 < k) (h9 : k ≤ 9) (hn : n < 10 ^ k) :
    strToUint (decimal k n) 0 k = some n :=
  (strToUint_whole h0 h9 (decimal_length k n)).mpr ⟨hn, rfl⟩

end Metaf
