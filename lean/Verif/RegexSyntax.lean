import Verif.Regex

/-!
Reader for the ECMAScript regular expression literals of metaf.

It turns the text of a literal, as it stands between the quotes in the source, into a syntax tree.
The syntax covered is the one used in metaf: characters, `\d`, escaped characters, classes with
ranges, capturing and non-capturing groups, alternatives, and the quantifiers `?`, `*`, `+`, `{n}`
and `{n,m}`.  Everything else is refused.
-/

namespace Metaf

namespace Rx

/-- Characters with a meaning of their own in ECMAScript patterns. -/
def special : Str := c!"\\^$.|?*+()[]{}"

/-- The items of a character class up to the closing bracket. -/
def readClass : Nat → Str → Option (List (Char × Char) × Str)
  | 0, _ => none
  | _ + 1, [] => none
  | n + 1, c :: cs =>
    if c = ']' then some ([], cs)
    else if c = '^' then none
    else if c = '\\' then
      match cs with
      | 'd' :: rest => (readClass n rest).map fun p => (('0', '9') :: p.1, p.2)
      | _ => none
    else
      match cs with
      | '-' :: e :: rest =>
        if e = ']' ∨ e = '\\' then none
        else (readClass n rest).map fun p => ((c, e) :: p.1, p.2)
      | _ => (readClass n cs).map fun p => ((c, c) :: p.1, p.2)

/-- A quantifier at the front of the text, applied to what stands before it. -/
def readQuantifier (r : Rx) : Str → Option (Rx × Str)
  | '?' :: cs => some (opt r, cs)
  | '*' :: cs => some (.star r, cs)
  | '+' :: cs => some (plus r, cs)
  | '{' :: n :: '}' :: cs =>
    if isDigit n then some (rep r (digitVal n), cs) else none
  | '{' :: n :: ',' :: m :: '}' :: cs =>
    if isDigit n ∧ isDigit m ∧ digitVal n ≤ digitVal m then
      some (if digitVal n = 0 then upTo r (digitVal m)
        else .seq (rep r (digitVal n)) (upTo r (digitVal m - digitVal n)), cs)
    else none
  | '{' :: _ => none
  | cs => some (r, cs)

mutual

/-- Alternatives, up to a closing parenthesis or the end. `i` is the number of capturing groups
opened before. -/
def readAlt : Nat → Nat → Str → Option (Rx × Nat × Str)
  | 0, _, _ => none
  | n + 1, i, s =>
    match readSeq n i s with
    | none => none
    | some (a, i, '|' :: cs) => (readAlt n i cs).map fun p => (.alt a p.1, p.2)
    | some (a, i, cs) => some (a, i, cs)

/-- A sequence, up to `|`, a closing parenthesis or the end. -/
def readSeq : Nat → Nat → Str → Option (Rx × Nat × Str)
  | 0, _, _ => none
  | n + 1, i, s =>
    match s with
    | [] => some (.eps, i, [])
    | c :: cs =>
      if c = '|' ∨ c = ')' then some (.eps, i, c :: cs)
      else
        match readAtom n i c cs with
        | none => none
        | some (a, i, cs) =>
          match readQuantifier a cs with
          | none => none
          | some (q, cs) => (readSeq n i cs).map fun p => (.seq q p.1, p.2)

/-- One character, class or group beginning with `c`. -/
def readAtom : Nat → Nat → Char → Str → Option (Rx × Nat × Str)
  | 0, _, _, _ => none
  | n + 1, i, c, cs =>
    if c = '(' then
      match cs with
      | '?' :: ':' :: rest =>
        match readAlt n i rest with
        | some (a, i, ')' :: rest) => some (a, i, rest)
        | _ => none
      | '?' :: _ => none
      | _ =>
        match readAlt n (i + 1) cs with
        | some (a, j, ')' :: rest) => some (.cap (i + 1) a, j, rest)
        | _ => none
    else if c = '[' then (readClass n cs).map fun p => (.set p.1, i, p.2)
    else if c = '\\' then
      match cs with
      | 'd' :: rest => some (d, i, rest)
      | e :: rest => if e ∈ special then some (chr e, i, rest) else none
      | [] => none
    else if c ∈ special then none
    else some (chr c, i, cs)

end

/-- The syntax tree of a regular expression literal. -/
def read (s : Str) : Option Rx :=
  match readAlt (3 * s.length + 3) 0 s with
  | some (r, _, []) => some r
  | _ => none

/-- A sequence whose first part is a sequence brought to the form first element, rest. -/
def mkSeq : Rx → Rx → Rx
  | .seq x y, b => mkSeq x (mkSeq y b)
  | .eps, b => b
  | a, .eps => a
  | a, b => .seq a b

/-- The same for alternatives. -/
def mkAlt : Rx → Rx → Rx
  | .alt x y, b => mkAlt x (mkAlt y b)
  | a, b => .alt a b

/-- Normal form: sequences and alternatives nested to the right, without empty parts of
sequences. -/
def norm : Rx → Rx
  | .eps => .eps
  | .set rs => .set rs
  | .seq a b => mkSeq (norm a) (norm b)
  | .alt a b => mkAlt (norm a) (norm b)
  | .star a => .star (norm a)
  | .cap i a => .cap i (norm a)

end Rx

end Metaf
