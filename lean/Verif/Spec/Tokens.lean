import Verif.Base
import Mathlib.Data.List.Forall2

/-!
Specification of how a report is divided into groups, independent of the tokenizer of the model.
-/

namespace Metaf.Spec

/-- Blank: any character up to the space, and any byte of 128 and above. -/
def Blank (c : Char) : Prop := c.toNat ≤ 32 ∨ 128 ≤ c.toNat

instance (c : Char) : Decidable (Blank c) := inferInstanceAs (Decidable (_ ∨ _))

/-- The part of a report before the report end indicator. -/
def beforeEnd (s : Str) : Str := s.takeWhile (· ≠ '=')

/-- `Layout ws s`: the text `s` consists of the words `ws` separated by runs of blanks, possibly
with blanks in front and behind. -/
inductive Layout : List Str → Str → Prop
  | nil {s : Str} : (∀ c ∈ s, Blank c) → Layout [] s
  | cons {lead w s : Str} {ws : List Str} : (∀ c ∈ lead, Blank c) →
      w ≠ [] → (∀ c ∈ w, ¬ Blank c) → (∀ c ∈ s.head?, Blank c) → Layout ws s →
      Layout (w :: ws) (lead ++ (w ++ s))

/-- `Pieces w ps`: the word `w` is cut into the groups `ps`: after each plus sign that is not the
first character of its group (a colour code such as `BLU+` ends with the plus sign). -/
inductive Pieces : Str → List Str → Prop
  | nil : Pieces [] []
  | last {c : Char} {u : Str} : '+' ∉ u → Pieces (c :: u) [c :: u]
  | cut {c : Char} {u w : Str} {ps : List Str} : '+' ∉ u → Pieces w ps →
      Pieces (c :: (u ++ '+' :: w)) ((c :: (u ++ ['+'])) :: ps)

/-- `Groups s ts`: the report `s` consists of the groups `ts`. -/
def Groups (s : Str) (ts : List Str) : Prop :=
  ∃ (ws : List Str) (pss : List (List Str)),
    Layout ws (beforeEnd s) ∧ List.Forall₂ Pieces ws pss ∧ ts = pss.flatten

end Metaf.Spec
