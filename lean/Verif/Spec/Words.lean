import Verif.Base

/-!
Specification of the words of a text.
-/

namespace Metaf.Spec

/-- The words of `cur ++ s` when `cur` holds no space. -/
def wordsAux (cur : Str) : Str → List Str
  | [] => if cur = [] then [] else [cur]
  | c :: s =>
    if c = ' ' then (if cur = [] then [] else [cur]) ++ wordsAux [] s else wordsAux (cur ++ [c]) s

/-- The non-empty pieces into which a text is divided by spaces. -/
def words (s : Str) : List Str := wordsAux [] s

/-- Words joined by single spaces. -/
def unwords : List Str → Str
  | [] => []
  | [w] => w
  | w :: ws => w ++ ' ' :: unwords ws

example : unwords [c!"PK", c!"WND", c!"28045/15"] = c!"PK WND 28045/15" := by decide

example : words c!"PK WND 28045/15" = [c!"PK", c!"WND", c!"28045/15"] := by decide

end Metaf.Spec
