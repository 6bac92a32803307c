import Verif.Model.Parser

/-!
The fixed texts of METAR and TAF reports.
-/

namespace Metaf.Spec

/-- Text and meaning of the keywords and the parts of the report where they are used. -/
def keywords : List (Str × KeywordType × List ReportPart) :=
  [(c!"METAR", .METAR, [.HEADER]), (c!"SPECI", .SPECI, [.HEADER]), (c!"TAF", .TAF, [.HEADER]),
   (c!"AMD", .AMD, [.HEADER]), (c!"COR", .COR, [.HEADER, .METAR]),
   (c!"NIL", .NIL, [.HEADER, .METAR, .TAF]), (c!"CNL", .CNL, [.HEADER, .METAR, .TAF]),
   (c!"AUTO", .AUTO, [.METAR]), (c!"CAVOK", .CAVOK, [.METAR, .TAF]),
   (c!"RMK", .RMK, [.METAR, .TAF]), (c!"AO1", .AO1, [.RMK]), (c!"AO2", .AO2, [.RMK]),
   (c!"AO1A", .AO1A, [.RMK]), (c!"AO2A", .AO2A, [.RMK]), (c!"NOSPECI", .NOSPECI, [.RMK]),
   (c!"$", .MAINTENANCE_INDICATOR, [.UNKNOWN, .HEADER, .METAR, .TAF, .RMK])]

/-- The text `s` stands for the keyword `k` in the part `p`. -/
def IsKeyword (p : ReportPart) (s : Str) (k : KeywordType) : Prop :=
  ∃ ps, (s, k, ps) ∈ keywords ∧ p ∈ ps

end Metaf.Spec
