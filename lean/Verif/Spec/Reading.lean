import Verif.Spec.Recognise
import Verif.Spec.Words

/-!
Specification of how words of a report body make up groups.
-/

namespace Metaf.Spec

variable [FloatSem]

/-- `Reads p md ws g`: in part `p` of a report the words `ws` together make up the group `g`. The first
word is recognised as a kind of group and the group takes each of the other words. -/
inductive Reads (p : ReportPart) (md : ReportMetadata) : List Str → Group → Prop
  | first {w : Str} {i : Nat} {g : Group} : recognise i w p md = .ok (some g) → Reads p md [w] g
  | more {ws : List Str} {g g' : Group} {w : Str} : Reads p md ws g →
      g.append w p md = .ok (g', .APPENDED) → Reads p md (ws ++ [w]) g'

/-- Words in a report body after which the parser waits for more: the beginning of wind shear on
runways and a whole number of miles. -/
inductive Unfinished : List Str → Prop
  | shear : Unfinished [c!"WS"]
  | shearAll : Unfinished [c!"WS", c!"ALL"]
  | miles1 {a : Char} : isDigit a = true → Unfinished [[a]]
  | miles2 {a b : Char} : isDigit a = true → isDigit b = true → Unfinished [[a, b]]

/-- `Cut p md t ws items`: the words `ws` of part `p`, which are followed by the word `t` (`[]` at the
end of the report), are divided into `items`, each a group with its words. From left to right a group
takes as many words as it can. If the next word shows that a group is not what its words seemed to be,
its words are unknown, and so is a word which is not recognised. -/
inductive Cut (p : ReportPart) (md : ReportMetadata) (t : Str) : List Str → List (Group × List Str) → Prop
  | nil : Cut p md t [] []
  | group {ws rest : List Str} {g : Group} {items : List (Group × List Str)} : Reads p md ws g →
      g.append (rest.headD t) p md = .ok (g, .NOT_APPENDED) → Cut p md t rest items →
      Cut p md t (ws ++ rest) ((g, ws) :: items)
  | broken {ws rest : List Str} {g : Group} {items : List (Group × List Str)} : Reads p md ws g →
      g.append (rest.headD t) p md = .ok (g, .GROUP_INVALIDATED) → Cut p md t rest items →
      Cut p md t (ws ++ rest) ((.unknown {}, ws) :: items)
  | unknown {w : Str} {rest : List Str} {items : List (Group × List Str)} :
      (∀ i g, recognise i w p md ≠ .ok (some g)) → Cut p md t rest items →
      Cut p md t (w :: rest) ((.unknown {}, [w]) :: items)

/-- One entry of the result per item, except that the words of adjacent unknown items are put
together in one entry. -/
def entries (p : ReportPart) : List (Group × List Str) → List GroupInfo
  | [] => []
  | (g, ws) :: items =>
    match g, entries p items with
    | .unknown u, ⟨.unknown _, _, raw⟩ :: later => ⟨.unknown u, p, unwords ws ++ ' ' :: raw⟩ :: later
    | g, later => ⟨g, p, unwords ws⟩ :: later

/-- The words which end the body or are errors in it. -/
def stops : ReportPart → List Str
  | .TAF => [c!"NIL", c!"CNL", c!"RMK", c!"$"]
  | _ => [c!"NIL", c!"CNL", c!"RMK"]

/-- `Header type ws`: the words with their groups are the beginning of a report of this type up to its
body. A METAR begins with its name, possibly `COR`, the location and the time of the report. A TAF begins
with its name, possibly `AMD` or `COR`, the location, possibly the time of the report, and the time span
of the forecast. -/
inductive Header : ReportType → List (Str × Group) → Prop
  | metar {k : Str × Group} {cor : List (Str × Group)} {l t : Str} {L T : Group} :
      k ∈ [(c!"METAR", .keyword ⟨.METAR⟩), (c!"SPECI", .keyword ⟨.SPECI⟩)] →
      cor ∈ [[], [(c!"COR", .keyword ⟨.COR⟩)]] →
      recognise 1 l .HEADER {} = .ok (some L) → recognise 2 t .HEADER {} = .ok (some T) →
      Header .METAR (k :: cor ++ [(l, L), (t, T)])
  | taf {cor time : List (Str × Group)} {l s : Str} {L S : Group} :
      cor ∈ [[], [(c!"COR", .keyword ⟨.COR⟩)], [(c!"AMD", .keyword ⟨.AMD⟩)]] →
      recognise 1 l .HEADER {} = .ok (some L) →
      (time = [] ∨ ∃ t T, time = [(t, T)] ∧ recognise 2 t .HEADER {} = .ok (some T)) →
      recognise 3 s .HEADER {} = .ok (some S) →
      Header .TAF ((c!"TAF", .keyword ⟨.TAF⟩) :: cor ++ [(l, L)] ++ time ++ [(s, S)])

/-- The part which is the body of a report. -/
def bodyPart : ReportType → ReportPart
  | .TAF => .TAF
  | _ => .METAR

end Metaf.Spec
