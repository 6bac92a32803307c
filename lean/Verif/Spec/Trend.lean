import Verif.Spec.Decimal
import Verif.Model.GroupsA

/-!
Words of trends and forecasts: the change indicators, the probabilities and the times which may be
written with them, and what each of them says.
-/

namespace Metaf.Spec

/-- A word of a trend. All numbers have two digits. -/
inductive TrendWord
  | nosig | becmg | tempo | inter | prob30 | prob40
  /-- `ddhh/ddhh`: from day and hour until day and hour. -/
  | span (d h d' h' : Nat)
  /-- `hhmm/hhmm`: from hour and minute until hour and minute. -/
  | spanMinutes (h m h' m' : Nat)
  /-- `FMddhhmm` -/
  | fromDay (d h m : Nat)
  /-- `FMhhmm` -/
  | from (h m : Nat)
  /-- `TLhhmm` -/
  | until (h m : Nat)
  /-- `AThhmm` -/
  | at (h m : Nat)
  deriving DecidableEq, Repr

namespace TrendWord

/-- The numbers have two digits. -/
def Ok : TrendWord → Prop
  | span a b c d | spanMinutes a b c d => a < 100 ∧ b < 100 ∧ c < 100 ∧ d < 100
  | fromDay a b c => a < 100 ∧ b < 100 ∧ c < 100
  | «from» a b | «until» a b | «at» a b => a < 100 ∧ b < 100
  | _ => True

/-- Where the word may be written: in the trend of a METAR, in a TAF, or in the heading. -/
def AllowedIn : TrendWord → ReportPart → Prop
  | becmg, p | tempo, p | inter, p => p = .METAR ∨ p = .TAF
  | nosig, p => p = .METAR
  | prob30, p | prob40, p => p = .TAF
  | span .., p => p = .TAF ∨ p = .HEADER
  | fromDay .., p => p = .TAF
  | spanMinutes .., p | «from» .., p | «until» .., p | «at» .., p => p = .METAR

def text : TrendWord → Str
  | nosig => c!"NOSIG" | becmg => c!"BECMG" | tempo => c!"TEMPO" | inter => c!"INTER"
  | prob30 => c!"PROB30" | prob40 => c!"PROB40"
  | span a b c d | spanMinutes a b c d =>
      decimal 2 a ++ decimal 2 b ++ c!"/" ++ decimal 2 c ++ decimal 2 d
  | fromDay a b c => c!"FM" ++ decimal 2 a ++ decimal 2 b ++ decimal 2 c
  | «from» a b => c!"FM" ++ decimal 2 a ++ decimal 2 b
  | «until» a b => c!"TL" ++ decimal 2 a ++ decimal 2 b
  | «at» a b => c!"AT" ++ decimal 2 a ++ decimal 2 b

/-- Time since when. -/
def since : TrendWord → Option MetafTime
  | span d h _ _ => some ⟨some d, h, 0⟩
  | spanMinutes h m _ _ => some ⟨none, h, m⟩
  | fromDay d h m => some ⟨some d, h, m⟩
  | «from» h m => some ⟨none, h, m⟩
  | _ => none

/-- Time until when. -/
def till : TrendWord → Option MetafTime
  | span _ _ d h => some ⟨some d, h, 0⟩
  | spanMinutes _ _ h m => some ⟨none, h, m⟩
  | «until» h m => some ⟨none, h, m⟩
  | _ => none

/-- Time of the event. -/
def moment : TrendWord → Option MetafTime
  | «at» h m => some ⟨none, h, m⟩
  | _ => none

/-- Probability. -/
def probability : TrendWord → Probability
  | prob30 => .PROB_30 | prob40 => .PROB_40 | _ => .NONE

/-- What the word says by itself. -/
def type : TrendWord → TrendType
  | nosig => .NOSIG | becmg => .BECMG | tempo => .TEMPO | inter => .INTER
  | prob30 | prob40 => .PROB
  | span .. | spanMinutes .. => .TIME_SPAN
  | fromDay .. | «from» .. => .FROM
  | «until» .. => .UNTIL
  | «at» .. => .AT

/-- Change indicator, which may be followed by times. -/
def isChange : TrendWord → Bool
  | becmg | tempo | inter => true | _ => false

def isProbability : TrendWord → Bool
  | prob30 | prob40 => true | _ => false

def isSpan : TrendWord → Bool
  | span .. | spanMinutes .. => true | _ => false

def isTime : TrendWord → Bool
  | span .. | spanMinutes .. | fromDay .. | «from» .. | «until» .. | «at» .. => true | _ => false

/-- Two words cannot both be used when they give the same time, or when one gives a time of the event
and the other a period. -/
def Compatible (a b : TrendWord) : Prop :=
  (a.since = none ∨ b.since = none) ∧ (a.till = none ∨ b.till = none) ∧
  (a.moment = none ∨ b.since = none ∧ b.till = none ∧ b.moment = none) ∧
  (b.moment = none ∨ a.since = none ∧ a.till = none ∧ a.moment = none)

/-- The word `w` continues the words `ws` read before:
* `PROB30` or `PROB40`: `TEMPO`, `INTER` or a period;
* words which contain a change indicator: a time which is compatible with all times before;
* a single `FM`: `TL`. -/
def Continues (ws : List TrendWord) (w : TrendWord) : Prop :=
  (∃ p, ws = [p] ∧ p.isProbability = true ∧ (w = tempo ∨ w = inter ∨ w.isSpan = true)) ∨
  ((∃ c ∈ ws, c.isChange = true) ∧ w.isTime = true ∧ ∀ v ∈ ws, v.Compatible w) ∨
  (∃ f, ws = [f] ∧ f.type = .FROM ∧ w.type = .UNTIL)

end TrendWord

end Metaf.Spec
