import Verif.Base

/-!
Decimal numbers as text.
-/

namespace Metaf.Spec

/-- The number `n` written with `k` decimal digits (leading zeros included). For `n ≥ 10 ^ k` the
leading digits do not fit and are left out; all statements require `n < 10 ^ k`. -/
def decimal : Nat → Nat → Str
  | 0, _ => []
  | k + 1, n => decimal k (n / 10) ++ [Nat.digitChar (n % 10)]

/-- The part of a text that begins at `pos` and has `len` characters, or as many as there are. -/
def part (s : Str) (pos len : Nat) : Str := (s.drop pos).take len

end Metaf.Spec
