import Verif.Model.Explain
import Mathlib.Tactic.Linarith
import Mathlib.Data.List.Basic

/-!
Lemmas on the output streams of the model of `explain.cpp`.
-/

set_option linter.unusedSectionVars false

namespace Metaf.Explain

open Metaf

variable [FloatSem]

/-- The text can be computed. -/
def Shown (r : Res Str) : Prop := ∃ s, r = .ok s

theorem shown_text (s : Str) : Shown (text s) ↔ True := by simp [Shown, text]

theorem shown_nil : Shown (cat []) ↔ True := by simp [Shown, cat]

theorem cat_cons (r : Res Str) (rs : List (Res Str)) :
    cat (r :: rs) = match r with
      | .error f => .error f
      | .ok s => match cat rs with
        | .error f => .error f
        | .ok t => .ok (s ++ t) := by
  cases r with
  | error f => rfl
  | ok s =>
    cases h : cat rs with
    | error f => simp [cat, h, bind, Except.bind]
    | ok t => simp [cat, h, bind, Except.bind]

theorem shown_cons (r : Res Str) (rs : List (Res Str)) : Shown (cat (r :: rs)) ↔ Shown r ∧ Shown (cat rs) := by
  unfold Shown
  rw [cat_cons]
  cases r <;> cases cat rs <;> simp

theorem shown_cat (rs : List (Res Str)) : Shown (cat rs) ↔ ∀ r ∈ rs, Shown r := by
  induction rs with
  | nil => simp [shown_nil]
  | cons r rs ih => rw [shown_cons, ih]; simp

theorem shown_opt (c : Bool) (r : Res Str) : Shown (opt c r) ↔ (c = true → Shown r) := by
  cases c <;> simp [opt, shown_text]

theorem shown_onSome {α : Type} (v : Option α) (f : α → Res Str) :
    Shown (onSome v f) ↔ ∀ a, v = some a → Shown (f a) := by
  cases v <;> simp [onSome, shown_text]

theorem shown_value {α : Type} (v : Option α) (f : α → Res Str) :
    Shown (value v f) ↔ ∃ a, v = some a ∧ Shown (f a) := by
  cases v <;> simp [value, Shown]

theorem shown_listed (d : Nat → Option (List Direction)) (f : List Direction → Res Str) :
    Shown (listed d f) ↔ ∃ l, d 64 = some l ∧ Shown (f l) := by
  unfold listed
  cases d 64 <;> simp [Shown]

theorem shown_notice (b : Bool) : Shown (notice b) ↔ True := by
  simp [notice, shown_opt, shown_text]

theorem shown_int (q : Rat) : Shown (showAsInt q) ↔ ∃ n, Summary.toInt q = .ok n := by
  unfold showAsInt Shown
  cases h : Summary.toInt q <;> simp [bind, Except.bind, text]

/-- What is put together. -/
theorem cat_ok {rs : List (Res Str)} {ss : List Str} (h : List.Forall₂ (fun r s => r = .ok s) rs ss) :
    cat rs = .ok ss.flatten := by
  induction h with
  | nil => rfl
  | cons h _ ih => rw [cat_cons, h, ih]; rfl

/-! ### Line breaks -/

/-- Line breaks replaced by `<br>`. -/
def withBreaks (s : Str) : Str := s.flatMap fun c => if c = '\n' then c!"<br>" else [c]

theorem withBreaks_append (s t : Str) : withBreaks (s ++ t) = withBreaks s ++ withBreaks t := by
  simp [withBreaks]

theorem withBreaks_self {s : Str} (h : '\n' ∉ s) : withBreaks s = s := by
  induction s with
  | nil => rfl
  | cons c s ih =>
    simp only [List.mem_cons, not_or] at h
    have hc : c ≠ '\n' := fun e => h.1 e.symm
    show (if c = '\n' then c!"<br>" else [c]) ++ withBreaks s = _
    rw [if_neg hc, ih h.2]
    rfl

theorem find_break {front rest : Str} (h : '\n' ∉ front) {k : Nat} (hk : k ≤ front.length) :
    findFrom (front ++ rest) '\n' k = (rest.findIdx? (· == '\n')).map (· + front.length) := by
  unfold findFrom
  have hf : ((front.drop k).findIdx? (· == '\n')) = none := by
    rw [List.findIdx?_eq_none_iff]
    intro x hx
    have := List.mem_of_mem_drop hx
    simp only [beq_eq_false_iff_ne, ne_eq]
    rintro rfl
    exact h this
  split
  · rw [List.drop_append_of_le_length hk, List.findIdx?_append, hf]
    cases rest.findIdx? (· == '\n') with
    | none => rfl
    | some i => simp; omega
  · rename_i hl
    simp only [List.length_append, not_lt] at hl
    have : rest = [] := List.length_eq_zero_iff.mp (by omega)
    subst this
    rfl

theorem first_break (s : Str) : '\n' ∉ s ∧ s.findIdx? (· == '\n') = none ∨
    ∃ a b, s = a ++ '\n' :: b ∧ '\n' ∉ a ∧ s.findIdx? (· == '\n') = some a.length := by
  induction s with
  | nil => exact Or.inl ⟨by simp, rfl⟩
  | cons c s ih =>
    by_cases hc : c = '\n'
    · subst hc
      exact Or.inr ⟨[], s, rfl, by simp, by simp [List.findIdx?_cons]⟩
    · rcases ih with ⟨h, hn⟩ | ⟨a, b, rfl, ha, hi⟩
      · refine Or.inl ⟨by simp [h, Ne.symm hc], ?_⟩
        rw [List.findIdx?_cons]
        simp [hc, hn]
      · refine Or.inr ⟨c :: a, b, rfl, by simp [ha, Ne.symm hc], ?_⟩
        rw [List.findIdx?_cons]
        simp [hc, hi]

theorem breakLoop_eq : ∀ (fuel : Nat) (front rest : Str) (k : Nat), '\n' ∉ front → k ≤ front.length →
    rest.length ≤ fuel →
    breakLoop fuel (front ++ rest) (findFrom (front ++ rest) '\n' k) = .ok (front ++ withBreaks rest) := by
  intro fuel
  induction fuel with
  | zero =>
    intro front rest k h hk hl
    obtain rfl : rest = [] := List.length_eq_zero_iff.mp (by omega)
    rw [find_break h hk]
    rfl
  | succ fuel ih =>
    intro front rest k h hk hl
    rw [find_break h hk]
    rcases first_break rest with ⟨hn, hi⟩ | ⟨a, b, rfl, ha, hi⟩
    · rw [hi, withBreaks_self hn]
      rfl
    · rw [hi]
      simp only [Option.map_some]
      show breakLoop fuel _ _ = _
      have e1 : (front ++ (a ++ '\n' :: b)).take (a.length + front.length) = front ++ a := by
        rw [← List.append_assoc, List.take_left' (by simp; omega)]
      have e2 : (front ++ (a ++ '\n' :: b)).drop (a.length + front.length + 1) = b := by
        rw [show front ++ (a ++ '\n' :: b) = (front ++ a ++ ['\n']) ++ b by simp,
          List.drop_left' (by simp; omega)]
      simp only [e1, e2]
      have hb : '\n' ∉ front ++ a ++ c!"<br>" := by simp [h, ha]
      rw [ih (front ++ a ++ c!"<br>") b 4 hb (by simp; omega) (by simp at hl; omega)]
      rw [withBreaks_append, withBreaks_self ha]
      simp [withBreaks]

theorem replaceBreaks_eq (s : Str) : replaceBreaks s = .ok (withBreaks s) :=
  breakLoop_eq (s.length + 1) [] s 0 (by simp) (by simp) (by simp)

end Metaf.Explain
