import Verif.Spec.Page
import Verif.Proofs.Numerals
import Verif.Props.Summary

/-!
Lemmas on the texts of the page with the summaries.
-/

set_option linter.unusedSectionVars false

namespace Metaf.Page

open Metaf Metaf.Spec Metaf.Summary

variable [FloatSem]

/-! ### Numbers -/

theorem showInt_text (n : Int) : showInt n = numberText n := by
  unfold showInt Explain.showInt numberText Explain.showNat
  split <;> rfl

theorem reverse_append_cons {α : Type} (l : List α) (a : α) : (l ++ [a]).reverse = a :: l.reverse := by simp

theorem dropZeros_snoc (s : Str) (c : Char) :
    dropZeros (s ++ [c]) = if c = '0' then dropZeros s else s ++ [c] := by
  unfold dropZeros
  rw [reverse_append_cons, List.dropWhile_cons]
  split
  · rename_i h
    rw [if_pos (by simpa using h)]
  · rename_i h
    rw [if_neg (by simpa using h)]
    simp

theorem digitChar_zero {k : Nat} (h : k < 10) : Nat.digitChar k = '0' ↔ k = 0 := by
  revert k; decide

theorem decimal_mod (w n : Nat) : decimal w (n % 10 ^ w) = decimal w n := by
  induction w generalizing n with
  | zero => rfl
  | succ w ih =>
    unfold decimal
    have e1 : n % 10 ^ (w + 1) / 10 = n / 10 % 10 ^ w := by
      rw [Nat.pow_succ, Nat.mul_comm (10 ^ w) 10, Nat.mod_mul_right_div_self]
    have e2 : n % 10 ^ (w + 1) % 10 = n % 10 := by
      rw [Nat.pow_succ, Nat.mul_comm (10 ^ w) 10, Nat.mod_mul_right_mod]
    rw [e1, e2, ih]

theorem showQuotient_text (n : Int) (k : Nat) : showQuotient n k = shortDecimal n k := by
  have main : ∀ k (n : Int), (if n < 0 then ['-'] else []) ++ Nat.toDigits 10 (n.natAbs / 10 ^ k) ++
      (if dropZeros (decimal k n.natAbs) = [] then [] else '.' :: dropZeros (decimal k n.natAbs)) =
      shortDecimal n k := by
    intro k
    induction k with
    | zero =>
      intro n
      unfold shortDecimal numberText
      rw [show dropZeros (decimal 0 n.natAbs) = [] from rfl, if_pos rfl, Nat.pow_zero, Nat.div_one, List.append_nil]
    | succ k ih =>
      intro n
      unfold shortDecimal
      have hd : decimal (k + 1) n.natAbs = decimal k (n.natAbs / 10) ++ [Nat.digitChar (n.natAbs % 10)] := rfl
      by_cases h : n % 10 = 0
      · rw [if_pos h, ← ih]
        have e1 : (n / 10).natAbs = n.natAbs / 10 := by omega
        have e2 : (n / 10 < 0) = (n < 0) := by
          apply propext; omega
        have e3 : n.natAbs / 10 / 10 ^ k = n.natAbs / 10 ^ (k + 1) := by
          rw [Nat.div_div_eq_div_mul, Nat.pow_succ, Nat.mul_comm]
        have e4 : dropZeros (decimal (k + 1) n.natAbs) = dropZeros (decimal k (n.natAbs / 10)) := by
          rw [hd, dropZeros_snoc, if_pos]
          rw [digitChar_zero (Nat.mod_lt _ (by decide))]
          omega
        rw [e4, e1, e3]
        simp only [e2]
      · rw [if_neg h]
        have e4 : dropZeros (decimal (k + 1) n.natAbs) = decimal (k + 1) n.natAbs := by
          rw [hd, dropZeros_snoc, if_neg]
          rw [digitChar_zero (Nat.mod_lt _ (by decide))]
          omega
        have ne : decimal (k + 1) n.natAbs ≠ [] := by rw [hd]; simp
        rw [e4, if_neg ne]
        simp only [List.append_assoc]
        rfl
  rw [← main]
  unfold showQuotient
  simp only [Explain.digits_decimal, decimal_mod, Explain.showNat]

/-! ### Characters -/

theorem lt_digits (n : Nat) : '<' ∉ Nat.toDigits 10 n := by
  intro h
  have h1 : ('<').isDigit = true := Nat.isDigit_of_mem_toDigits (by decide) (by decide) h
  exact absurd h1 (by decide)

theorem lt_numberText (n : Int) : '<' ∉ numberText n := by
  unfold numberText
  rw [List.mem_append]
  rintro (h | h)
  · split at h
    · exact absurd h (by decide)
    · exact nomatch h
  · exact lt_digits _ h

theorem lt_decimal (w n : Nat) : '<' ∉ decimal w n := by
  induction w generalizing n with
  | zero => exact fun h => nomatch h
  | succ w ih =>
    unfold decimal
    rw [List.mem_append]
    rintro (h | h)
    · exact ih _ h
    · have : ∀ k < 10, '<' ≠ Nat.digitChar k := by decide
      exact this _ (Nat.mod_lt _ (by decide)) (List.mem_singleton.mp h)

theorem lt_shortDecimal (n : Int) (k : Nat) : '<' ∉ shortDecimal n k := by
  induction k generalizing n with
  | zero => exact lt_numberText n
  | succ k ih =>
    unfold shortDecimal
    split
    · exact ih _
    · simp only [List.mem_append, not_or]
      refine ⟨⟨⟨?_, lt_digits _⟩, by decide⟩, lt_decimal _ _⟩
      split
      · decide
      · exact fun h => nomatch h

/-! ### Tables -/

theorem phenomena_text : ∀ n < 74, weatherPhenomenaToText n = .ok (phrase n) := by decide +kernel

theorem phenomena_unknown (n : Nat) (h : 74 ≤ n) : weatherPhenomenaToText n = .ok c!"Unknown weather phenomena" := by
  have step : ∀ l : List (Str × Str), (∀ c ∈ l, ∃ v, weatherValue c.1 = .ok v ∧ v < 74) →
      switchText weatherValue n c!"Unknown weather phenomena" l = .ok c!"Unknown weather phenomena" := by
    intro l
    induction l with
    | nil => intro _; rfl
    | cons c cs ih =>
      intro hc
      obtain ⟨v, hv, hl⟩ := hc c (List.mem_cons_self ..)
      unfold switchText
      rw [hv]
      show (if v = n then _ else _) = _
      rw [if_neg (by omega)]
      exact ih fun x hx => hc x (List.mem_cons_of_mem _ hx)
  refine step _ ?_
  have : ∀ c ∈ weatherTexts, (match weatherValue c.1 with | .ok v => decide (v < 74) | .error _ => false) = true := by
    decide +kernel
  intro c hc
  have h1 := this c hc
  cases hv : weatherValue c.1 with
  | ok v => rw [hv] at h1; exact ⟨v, rfl, by simpa using h1⟩
  | error f => rw [hv] at h1; exact absurd h1 Bool.false_ne_true

theorem cloud_text (c : Sky) : cloudToText (skyNum c) = .ok (skyPhrase c) := by
  cases c <;> decide +kernel

theorem lt_phrase (n : Nat) : '<' ∉ phrase n := by
  have h : ∀ p ∈ phrases, '<' ∉ p := by decide +kernel
  unfold phrase
  rw [List.getD_eq_getElem?_getD]
  cases hp : phrases[n]? with
  | none => exact fun h => nomatch h
  | some p => exact h p (List.mem_of_getElem? hp)

theorem lt_skyPhrase (c : Sky) : '<' ∉ skyPhrase c := by cases c <;> decide

theorem weather_text (eol : Str) (l : List Nat) (h : ∀ n ∈ l, n < 74) :
    weatherToText eol l = .ok ((l.map fun n => phrase n ++ eol).flatten) := by
  induction l with
  | nil => rfl
  | cons n l ih =>
    unfold weatherToText
    rw [phenomena_text n (h n (List.mem_cons_self ..)), ih fun x hx => h x (List.mem_cons_of_mem _ hx)]
    rfl

end Metaf.Page
