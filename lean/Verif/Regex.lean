import Verif.Base

/-!
Regular expressions as used by metaf through `std::regex` (ECMAScript grammar) and
`std::regex_match`.

`run` lists all ways to match a prefix of the input, in the order in which a backtracking
ECMAScript matcher tries them.  `regexMatch` takes the first that consumes the whole input.
-/

namespace Metaf

/-- Regular expressions. A character set is a list of inclusive ranges. -/
inductive Rx
  | eps
  | set (ranges : List (Char × Char))
  | seq (a b : Rx)
  | alt (a b : Rx)
  | star (a : Rx)
  | cap (i : Nat) (a : Rx)
  deriving DecidableEq, Repr

/-- Sub-matches: group number and text, latest first. -/
abbrev Caps := List (Nat × Str)

namespace Rx

/-- Membership in a character set. -/
def inSet (rs : List (Char × Char)) (c : Char) : Bool :=
  rs.any fun r => r.1.toNat ≤ c.toNat && c.toNat ≤ r.2.toNat

/-- All matches of a prefix of the input in priority order.  A match is the list of sub-matches,
the text consumed and the text that remains.
`star` is unrolled at most as many times as there are characters left: an iteration that consumes
nothing is not repeated (ECMAScript discards empty iterations). -/
def run : Rx → Str → List (Caps × Str × Str)
  | .eps, s => [([], [], s)]
  | .set rs, s =>
    match s with
    | [] => []
    | c :: cs => if inSet rs c then [([], [c], cs)] else []
  | .seq a b, s =>
    (run a s).flatMap fun (ca, wa, ra) => (run b ra).map fun (cb, wb, rb) => (cb ++ ca, wa ++ wb, rb)
  | .alt a b, s => run a s ++ run b s
  | .star a, s => iter (run a) s.length s
  | .cap i a, s => (run a s).map fun (ca, wa, ra) => ((i, wa) :: ca, wa, ra)
where
  /-- Greedy repetition of a matcher, at most `n` times, each time consuming something. -/
  iter (f : Str → List (Caps × Str × Str)) : Nat → Str → List (Caps × Str × Str)
  | 0, s => [([], [], s)]
  | n + 1, s =>
    ((f s).filter fun m => !m.2.1.isEmpty).flatMap (fun (ca, wa, ra) =>
      (iter f n ra).map fun (cb, wb, rb) => (cb ++ ca, wa ++ wb, rb)) ++ [([], [], s)]

end Rx

/-- `std::regex_match`: sub-matches of the first match of the whole input. -/
def regexMatch (r : Rx) (s : Str) : Option Caps :=
  ((r.run s).find? fun m => m.2.2.isEmpty).map (·.1)

/-- `match.str(i)`: text of a sub-match, empty if the group did not take part. -/
def Caps.str (m : Caps) (i : Nat) : Str := ((m.find? fun p => p.1 == i).map (·.2)).getD []

/-- The texts delivered by `std::sregex_iterator`: successive leftmost matches of non-empty text,
each the first in priority order at its position. `n` bounds the number of positions tried. -/
def searchAll (r : Rx) : Nat → Str → List Str
  | 0, _ => []
  | n + 1, s =>
    match ((r.run s).filter fun m => !m.2.1.isEmpty).head? with
    | some (_, w, rest) => w :: searchAll r n rest
    | none =>
      match s with
      | [] => []
      | _ :: cs => searchAll r n cs

namespace Rx

/-- A single character. -/
def chr (c : Char) : Rx := .set [(c, c)]

/-- A literal string. -/
def lit : Str → Rx
  | [] => .eps
  | [c] => chr c
  | c :: cs => .seq (chr c) (lit cs)

/-- `r?` (greedy). -/
def opt (r : Rx) : Rx := .alt r .eps

/-- `r{n}`. -/
def rep (r : Rx) : Nat → Rx
  | 0 => .eps
  | 1 => r
  | n + 2 => .seq r (rep r (n + 1))

/-- `r{0,n}` (greedy). -/
def upTo (r : Rx) : Nat → Rx
  | 0 => .eps
  | n + 1 => opt (.seq r (upTo r n))

/-- `r+` (greedy). -/
def plus (r : Rx) : Rx := .seq r (.star r)

/-- `\d` (C locale). -/
def d : Rx := .set [('0', '9')]

/-- `[A-Z]`. -/
def AZ : Rx := .set [('A', 'Z')]

/-- A set of single characters, `[NSWE]`. -/
def oneOf (s : Str) : Rx := .set (s.map fun c => (c, c))

end Rx

/-- Sequence of regular expressions. -/
infixr:67 " ⬝ " => Rx.seq
/-- Alternative. -/
infixr:66 " ∥ " => Rx.alt

end Metaf
