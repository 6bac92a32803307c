import Lean

/-!
Strings, faults and the two number scanners of metaf.

A `std::string` is modelled as a list of characters.  A byte `b` is the character with code `b`.
Source: `/repo/include/metaf.hpp`.
-/

namespace Metaf

/-- `std::string`. -/
abbrev Str := List Char

open Lean in
/-- `c!"ABC"` is the explicit list `['A', 'B', 'C']` (a C++ string literal). -/
macro:max "c!" s:str : term => do
  let cs := s.getString.toList.toArray.map (fun c => (Syntax.mkCharLit c : TSyntax `term))
  `(([$cs,*] : List Char))

/-- Undefined behaviour or non-termination of the C++ code, kept as distinct outcomes. -/
inductive Fault
  /-- Read outside of a vector or array. -/
  | outOfRange
  /-- Dereference of an empty `std::optional`. -/
  | emptyOptional
  /-- A loop was not left within the number of iterations granted to the model. -/
  | timeout
  /-- Conversion of a `float` to an integer type that cannot hold its value. -/
  | conversion
  deriving DecidableEq, Repr

/-- Result of a C++ expression that may reach undefined behaviour. -/
abbrev Res (α : Type) := Except Fault α

/-- Value range of `unsigned int` (32 bits). -/
def uintRange : Nat := 4294967296

/-- Reduction modulo the range of `unsigned int`, as in the arithmetic at metaf.hpp:2524. -/
def wrap (n : Nat) : Nat := n % uintRange

/-- `s[i]` for `i ≤ s.length()`; at `s.length()` C++ returns the terminating zero.
Used for example at metaf.hpp:2561-2563, 2752 and 2905. -/
def ch (s : Str) (i : Nat) : Char := s.getD i '\x00'

/-- `s.substr(pos, len)` for `pos ≤ s.length()`. Used for example at metaf.hpp:2901 and 3899. -/
def substr (s : Str) (pos len : Nat) : Str := (s.drop pos).take len

/-- `s.find(c, start)`, used at metaf.hpp:2539, 2910, 4936, 4946, 4978 and 4982. -/
def findFrom (s : Str) (c : Char) (start : Nat) : Option Nat :=
  if start < s.length then
    ((s.drop start).findIdx? (· == c)).map (· + start)
  else none

/-- A decimal digit, the test at metaf.hpp:2522. -/
def isDigit (c : Char) : Bool := '0'.toNat ≤ c.toNat && c.toNat ≤ '9'.toNat

/-- The value of a digit, metaf.hpp:2524. -/
def digitVal (c : Char) : Nat := c.toNat - '0'.toNat

/-- The loop of `strToUint`, metaf.hpp:2521-2525: scans all characters given, starting with `value`.
`unsigned int` arithmetic wraps. -/
def scanUint : Str → Nat → Option Nat
  | [], value => some value
  | c :: cs, value => if isDigit c then scanUint cs (wrap (value * 10 + digitVal c)) else none

/-- `strToUint`, metaf.hpp:2514-2527.  `startPos + digits` is assumed not to exceed the range of
`size_t`; all callers pass small constants or lengths of existing strings. -/
def strToUint (s : Str) (startPos digits : Nat) : Option Nat :=
  if s.isEmpty || digits == 0 || startPos + digits > s.length then none
  else scanUint (substr s startPos digits) 0

/-- `fractionStrToUint`, metaf.hpp:2529-2555.  `startPos` must not exceed `s.length()` (all callers
pass 0 or 1 with a string that has that many characters). The C++ `int` lengths are kept as
integers. -/
def fractionStrToUint (s : Str) (startPos length : Nat) : Option (Nat × Nat) :=
  let length := if length + startPos > s.length then s.length - startPos else length
  let endPos : Int := startPos + length
  match findFrom s '/' startPos with
  | none => none
  | some slashPos =>
    let numeratorLength : Int := slashPos - startPos
    if numeratorLength < 1 || numeratorLength > 2 then none
    else
      let denominatorPos : Int := slashPos + 1
      let denominatorLength : Int := endPos - denominatorPos
      if denominatorLength < 1 || denominatorLength > 2 then none
      else
        match strToUint s startPos numeratorLength.toNat,
              strToUint s denominatorPos.toNat denominatorLength.toNat with
        | some n, some d => some (n, d)
        | _, _ => none

end Metaf
