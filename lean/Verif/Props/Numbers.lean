import Verif.Proofs.Decimal

/-!
C22 and C23: numbers and fractions.
-/

namespace Metaf.Props

open Metaf.Spec

/-- C22. A number is read exactly when the characters asked for lie within the text and are the
decimal form of a number; the value is this number, reduced modulo 2^32 if it does not fit. -/
theorem C22_number (s : Str) (pos digits v : Nat) :
    strToUint s pos digits = some v ↔
      0 < digits ∧ pos + digits ≤ s.length ∧
      ∃ n, n < 10 ^ digits ∧ part s pos digits = decimal digits n ∧ v = n % 4294967296 :=
  strToUint_wrap

/-- C22. Up to nine digits the value is the number written. -/
theorem C22_number_exact (s : Str) (pos digits v : Nat) (h0 : 0 < digits) (h9 : digits ≤ 9) :
    strToUint s pos digits = some v ↔
      pos + digits ≤ s.length ∧ v < 10 ^ digits ∧ part s pos digits = decimal digits v :=
  strToUint_iff h0 h9

/-- C22. There is a value exactly when the text asked for is made of digits and is complete. -/
theorem C22_digits (s : Str) (pos digits : Nat) :
    (strToUint s pos digits).isSome = true ↔
      0 < digits ∧ pos + digits ≤ s.length ∧
      ∀ c ∈ part s pos digits, c ∈ c!"0123456789" := by
  have hd : ∀ c : Char, isDigit c = true ↔ c ∈ c!"0123456789" := by
    intro c
    rw [isDigit_iff]
    constructor
    · rintro ⟨n, hn, rfl⟩
      interval_cases n <;> decide
    · intro h
      simp only [List.mem_cons, List.not_mem_nil, or_false] at h
      rcases h with rfl | rfl | rfl | rfl | rfl | rfl | rfl | rfl | rfl | rfl
      · exact ⟨0, by omega, rfl⟩
      · exact ⟨1, by omega, rfl⟩
      · exact ⟨2, by omega, rfl⟩
      · exact ⟨3, by omega, rfl⟩
      · exact ⟨4, by omega, rfl⟩
      · exact ⟨5, by omega, rfl⟩
      · exact ⟨6, by omega, rfl⟩
      · exact ⟨7, by omega, rfl⟩
      · exact ⟨8, by omega, rfl⟩
      · exact ⟨9, by omega, rfl⟩
  rw [Option.isSome_iff_exists]
  constructor
  · rintro ⟨v, hv⟩
    obtain ⟨h1, h2, n, -, h3, -⟩ := strToUint_wrap.mp hv
    refine ⟨h1, h2, fun c hc => ?_⟩
    rw [h3] at hc
    exact (hd c).mp (decimal_digits _ _ c hc)
  · rintro ⟨h1, h2, h3⟩
    obtain ⟨n, hn, hs⟩ := digits_decimal (part s pos digits) (fun c hc => (hd c).mpr (h3 c hc))
    rw [part_length h2] at hn hs
    exact ⟨n % uintRange, strToUint_wrap.mpr ⟨h1, h2, n, hn, hs, rfl⟩⟩

/-- C22. Distinct numbers are written differently: the decimal form determines the number. -/
theorem C22_decimal_unique (k n m : Nat) (hn : n < 10 ^ k) (hm : m < 10 ^ k)
    (h : decimal k n = decimal k m) : n = m := decimal_inj hn hm h

example : strToUint c!"R24L" 1 2 = some 24 ∧ decimal 2 24 = c!"24" ∧
    strToUint c!"4294967296" 0 10 = some 0 ∧ strToUint c!"2X" 0 2 = none := by decide +kernel

/-- C23. A fraction is read exactly from one or two digits, a slash and one or two digits. -/
theorem C23_fraction (s : Str) (pos len a b : Nat) :
    fractionStrToUint s pos len = some (a, b) ↔
      ∃ i j, (i = 1 ∨ i = 2) ∧ (j = 1 ∨ j = 2) ∧ a < 10 ^ i ∧ b < 10 ^ j ∧
        part s pos len = decimal i a ++ '/' :: decimal j b :=
  fraction_iff

example : fractionStrToUint c!"M11/16SM" 1 5 = some (11, 16) ∧
    fractionStrToUint c!"1/" 0 2 = none ∧ fractionStrToUint c!"123/4" 0 5 = none := by
  decide +kernel

end Metaf.Props
