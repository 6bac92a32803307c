import Verif.Proofs.Regex
import Verif.Proofs.Decimal

/-!
Matches of the building blocks of metaf's regular expressions in terms of numbers as text.
-/

namespace Metaf

open Metaf.Spec

theorem two_digits {a b : Char} (ha : isDigit a = true) (hb : isDigit b = true) :
    ∃ n < 100, [a, b] = decimal 2 n := by
  obtain ⟨n, hn, h⟩ := digits_decimal [a, b] (by simp [ha, hb])
  exact ⟨n, by simpa using hn, h⟩

theorem three_digits {a b c : Char} (ha : isDigit a = true) (hb : isDigit b = true)
    (hc : isDigit c = true) : ∃ n < 1000, [a, b, c] = decimal 3 n := by
  obtain ⟨n, hn, h⟩ := digits_decimal [a, b, c] (by simp [ha, hb, hc])
  exact ⟨n, by simpa using hn, h⟩

theorem four_digits {a b c d : Char} (ha : isDigit a = true) (hb : isDigit b = true)
    (hc : isDigit c = true) (hd : isDigit d = true) : ∃ n < 10000, [a, b, c, d] = decimal 4 n := by
  obtain ⟨n, hn, h⟩ := digits_decimal [a, b, c, d] (by simp [ha, hb, hc, hd])
  exact ⟨n, by simpa using hn, h⟩

theorem decimal_two_digits (n : Nat) : ∃ a b, isDigit a = true ∧ isDigit b = true ∧
    decimal 2 n = [a, b] :=
  ⟨_, _, digitChar_isDigit (by omega), digitChar_isDigit (by omega), decimal_two n⟩

theorem decimal_three_digits (n : Nat) : ∃ a b c, isDigit a = true ∧ isDigit b = true ∧
    isDigit c = true ∧ decimal 3 n = [a, b, c] :=
  ⟨_, _, _, digitChar_isDigit (by omega), digitChar_isDigit (by omega),
    digitChar_isDigit (by omega), decimal_three n⟩

theorem decimal_four_digits (n : Nat) : ∃ a b c d, isDigit a = true ∧ isDigit b = true ∧
    isDigit c = true ∧ isDigit d = true ∧ decimal 4 n = [a, b, c, d] :=
  ⟨_, _, _, _, digitChar_isDigit (by omega), digitChar_isDigit (by omega),
    digitChar_isDigit (by omega), digitChar_isDigit (by omega), decimal_four n⟩

theorem decimal_four_split (n : Nat) : decimal 4 n = decimal 2 (n / 100) ++ decimal 2 n := by
  simp [decimal_four, decimal_two, Nat.div_div_eq_div_mul]

namespace Rx

theorem match_digits1 {w : Str} {c : Caps} :
    Match d w c ↔ c = [] ∧ ∃ n < 10, w = decimal 1 n := by
  rw [match_d]
  constructor
  · rintro ⟨x, hx, rfl, rfl⟩
    obtain ⟨n, hn, rfl⟩ := isDigit_iff.mp hx
    exact ⟨rfl, n, hn, by rw [decimal_one, Nat.mod_eq_of_lt hn]⟩
  · rintro ⟨rfl, n, hn, rfl⟩
    exact ⟨_, digitChar_isDigit (by omega), decimal_one n, rfl⟩

theorem match_digits2 {w : Str} {c : Caps} :
    Match (d ⬝ d) w c ↔ c = [] ∧ ∃ n < 100, w = decimal 2 n := by
  simp only [match_seq, match_d]
  constructor
  · rintro ⟨u, v, ca, cb, ⟨x, hx, rfl, rfl⟩, ⟨y, hy, rfl, rfl⟩, rfl, rfl⟩
    exact ⟨rfl, two_digits hx hy⟩
  · rintro ⟨rfl, n, hn, rfl⟩
    obtain ⟨a, b, ha, hb, h⟩ := decimal_two_digits n
    exact ⟨[a], [b], [], [], ⟨a, ha, rfl, rfl⟩, ⟨b, hb, rfl, rfl⟩, by simp [h], rfl⟩

theorem match_digits3 {w : Str} {c : Caps} :
    Match (d ⬝ d ⬝ d) w c ↔ c = [] ∧ ∃ n < 1000, w = decimal 3 n := by
  simp only [match_seq, match_d]
  constructor
  · rintro ⟨_, _, _, _, ⟨x, hx, rfl, rfl⟩,
      ⟨_, _, _, _, ⟨y, hy, rfl, rfl⟩, ⟨z, hz, rfl, rfl⟩, rfl, rfl⟩, rfl, rfl⟩
    exact ⟨rfl, three_digits hx hy hz⟩
  · rintro ⟨rfl, n, hn, rfl⟩
    obtain ⟨a, b, e, ha, hb, he, h⟩ := decimal_three_digits n
    exact ⟨[a], [b, e], [], [], ⟨a, ha, rfl, rfl⟩,
      ⟨[b], [e], [], [], ⟨b, hb, rfl, rfl⟩, ⟨e, he, rfl, rfl⟩, rfl, rfl⟩, by simp [h], rfl⟩

theorem match_digits4 {w : Str} {c : Caps} :
    Match (d ⬝ d ⬝ d ⬝ d) w c ↔ c = [] ∧ ∃ n < 10000, w = decimal 4 n := by
  simp only [match_seq, match_d]
  constructor
  · rintro ⟨_, _, _, _, ⟨x, hx, rfl, rfl⟩, ⟨_, _, _, _, ⟨y, hy, rfl, rfl⟩,
      ⟨_, _, _, _, ⟨z, hz, rfl, rfl⟩, ⟨t, ht, rfl, rfl⟩, rfl, rfl⟩, rfl, rfl⟩, rfl, rfl⟩
    exact ⟨rfl, four_digits hx hy hz ht⟩
  · rintro ⟨rfl, n, hn, rfl⟩
    obtain ⟨a, b, e, f, ha, hb, he, hf, h⟩ := decimal_four_digits n
    exact ⟨[a], [b, e, f], [], [], ⟨a, ha, rfl, rfl⟩, ⟨[b], [e, f], [], [], ⟨b, hb, rfl, rfl⟩,
      ⟨[e], [f], [], [], ⟨e, he, rfl, rfl⟩, ⟨f, hf, rfl, rfl⟩, rfl, rfl⟩, rfl, rfl⟩, by simp [h], rfl⟩

/-- Two digits and a zero. -/
theorem match_two_pairs {w : Str} {c : Caps} : Rx.Match (.d ⬝ .d ⬝ .d ⬝ .d) w c ↔
    c = [] ∧ ∃ d h, d < 100 ∧ h < 100 ∧ w = decimal 2 d ++ decimal 2 h := by
  rw [match_digits4]
  refine and_congr_right fun _ => ?_
  constructor
  · rintro ⟨n, hn, rfl⟩
    refine ⟨n / 100, n % 100, by omega, by omega, ?_⟩
    rw [decimal_four_split]
    congr 1
    simp only [decimal_two, List.cons.injEq, and_true]
    constructor <;> congr 1 <;> omega
  · rintro ⟨d, h, hd, hh, rfl⟩
    refine ⟨100 * d + h, by omega, ?_⟩
    rw [decimal_four_split]
    have h1 : (100 * d + h) / 100 = d := by omega
    rw [h1]
    congr 1
    simp only [decimal_two, List.cons.injEq, and_true]
    constructor <;> congr 1 <;> omega

theorem match_tens {w : Str} {c : Caps} :
    Match (d ⬝ d ⬝ chr '0') w c ↔ c = [] ∧ ∃ n < 100, w = decimal 3 (10 * n) := by
  simp only [match_seq, match_d, match_chr]
  constructor
  · rintro ⟨_, _, _, _, ⟨x, hx, rfl, rfl⟩,
      ⟨_, _, _, _, ⟨y, hy, rfl, rfl⟩, ⟨rfl, rfl⟩, rfl, rfl⟩, rfl, rfl⟩
    obtain ⟨n, hn, h⟩ := two_digits hx hy
    refine ⟨rfl, n, hn, ?_⟩
    have h3 : decimal 3 (10 * n) = decimal 2 n ++ ['0'] := by
      show decimal 2 (10 * n / 10) ++ [Nat.digitChar (10 * n % 10)] = _
      rw [Nat.mul_div_cancel_left n (by decide), Nat.mul_mod_right]; rfl
    rw [h3, ← h]; rfl
  · rintro ⟨rfl, n, hn, rfl⟩
    obtain ⟨a, b, ha, hb, h⟩ := decimal_two_digits n
    have h3 : decimal 3 (10 * n) = decimal 2 n ++ ['0'] := by
      show decimal 2 (10 * n / 10) ++ [Nat.digitChar (10 * n % 10)] = _
      rw [Nat.mul_div_cancel_left n (by decide), Nat.mul_mod_right]; rfl
    exact ⟨[a], [b, '0'], [], [], ⟨a, ha, rfl, rfl⟩,
      ⟨[b], ['0'], [], [], ⟨b, hb, rfl, rfl⟩, ⟨rfl, rfl⟩, rfl, rfl⟩, by simp [h3, h], rfl⟩

theorem inSet_capital {c : Char} : inSet [('A', 'Z')] c = true ↔ 'A' ≤ c ∧ c ≤ 'Z' := by
  simp only [inSet, List.any_cons, List.any_nil, Bool.or_false, Bool.and_eq_true, decide_eq_true_eq]
  rfl

theorem match_AZ {w : Str} {c : Caps} :
    Match AZ w c ↔ ∃ x, ('A' ≤ x ∧ x ≤ 'Z') ∧ w = [x] ∧ c = [] := by
  simp only [AZ, match_set, inSet_capital]

end Rx

/-- The longest part of digits at the beginning of a text. -/
theorem digits_prefix {a b x y : Str} (ha : ∀ c ∈ a, isDigit c = true) (hb : ∀ c ∈ b, isDigit c = true)
    (hx : ∀ c ∈ x.head?, isDigit c = false) (hy : ∀ c ∈ y.head?, isDigit c = false)
    (h : a ++ x = b ++ y) : a = b ∧ x = y := by
  induction a generalizing b with
  | nil =>
    cases b with
    | nil => exact ⟨rfl, h⟩
    | cons c b =>
      simp only [List.nil_append] at h
      subst h
      have := hx c (by simp)
      rw [hb c (by simp)] at this
      cases this
  | cons c a ih =>
    cases b with
    | nil =>
      simp only [List.nil_append] at h
      subst h
      have := hy c (by simp)
      rw [ha c (by simp)] at this
      cases this
    | cons e b =>
      simp only [List.cons_append, List.cons.injEq] at h
      obtain ⟨h1, h2⟩ := ih (fun c hc => ha c (by simp [hc])) (fun c hc => hb c (by simp [hc])) h.2
      exact ⟨by rw [h.1, h1], h2⟩

/-- A regular expression whose matches are given by written forms: when the text determines the
sub-matches, `regexMatch` reports those of the form. -/
theorem regexMatch_form {F : Type} {r : Rx} {ok : F → Prop} {text : F → Str} {caps : F → Caps}
    (h : ∀ s c, r.Match s c ↔ ∃ f, ok f ∧ s = text f ∧ c = caps f)
    (inj : ∀ f f', ok f → ok f' → text f = text f' → caps f = caps f') (s : Str) (m : Caps) :
    regexMatch r s = some m ↔ ∃ f, ok f ∧ s = text f ∧ m = caps f := by
  constructor
  · intro hm
    exact (h s m).mp (regexMatch_sound hm)
  · rintro ⟨f, hf, rfl, rfl⟩
    apply regexMatch_unique ((h _ _).mpr ⟨f, hf, rfl, rfl⟩)
    intro c' hc'
    obtain ⟨f', hf', e1, e2⟩ := (h _ _).mp hc'
    rw [e2]
    exact (inj f f' hf hf' e1).symm

theorem decimal_head (k n : Nat) : ∀ c ∈ (decimal k n).head?, isDigit c = true := by
  intro c hc
  exact decimal_digits k n c (List.mem_of_mem_head? hc)

end Metaf
