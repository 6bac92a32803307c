import Verif.Model.Performance

/-!
C117, names of the parts of a report: the lookups by name and by number find what the names and the numbers were
made of, and nothing else.
-/

namespace Metaf.Props

open Metaf.Performance

theorem C117_part_names (name : Str) (p : ReportPart) :
    reportPartFromName name = some p ↔ name = reportPartName p := by
  constructor
  · intro h
    unfold reportPartFromName at h
    repeat' split at h
    all_goals cases h
    all_goals assumption
  · rintro rfl
    cases p <;> decide

theorem C117_part_numbers (i : Nat) (p : ReportPart) :
    reportPartFromIndex i = some p ↔ i = reportPartIndex p := by
  constructor
  · intro h
    unfold reportPartFromIndex at h
    split at h
    all_goals cases h
    all_goals rfl
  · rintro rfl
    cases p <;> rfl

/-- Example: `"taf"` is found, `"forecast"` is not. -/
example : reportPartFromName c!"taf" = some .TAF ∧ reportPartFromName c!"forecast" = none := by decide

end Metaf.Props
