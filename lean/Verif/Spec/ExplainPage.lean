import Verif.Spec.Tokens

/-!
What the address of the page which explains reports is to look like, without reference to the model.
-/

namespace Metaf.Spec

/-- The text as JavaScript keeps it: characters up to U+FFFF are one unit, the others a pair of surrogates. -/
def units (t : List Char) : List Nat :=
  t.flatMap fun c =>
    if c.toNat < 0x10000 then [c.toNat] else [0xD7C0 + c.toNat / 1024, 0xDC00 + c.toNat % 1024]

/-- A character which needs no escape in an address: a letter, a digit, or one of `-_.!~*'()`. -/
def AddressChar (c : Char) : Prop :=
  ('A' ≤ c ∧ c ≤ 'Z') ∨ ('a' ≤ c ∧ c ≤ 'z') ∨ ('0' ≤ c ∧ c ≤ '9') ∨
    c ∈ ['-', '_', '.', '!', '~', '*', '\'', '(', ')']

instance (c : Char) : Decidable (AddressChar c) := inferInstanceAs (Decidable (_ ∨ _))

/-- The escape of an octet: `%` and two hexadecimal digits in upper case. -/
def escaped (b : UInt8) : List Char :=
  let digits := ['0', '1', '2', '3', '4', '5', '6', '7', '8', '9', 'A', 'B', 'C', 'D', 'E', 'F']
  ['%', digits.getD (b.toNat / 16) '?', digits.getD (b.toNat % 16) '?']

/-- The text as it is written in the address after `#`. -/
def address (t : List Char) : List Char :=
  t.flatMap fun c => if AddressChar c then [c] else (String.utf8EncodeChar c).flatMap escaped

end Metaf.Spec
