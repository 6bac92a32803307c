import Verif.Props.FirstReplacement

/-!
Cases of theorems of other files which have none beside them: C21 (`Props/Text.lean`) and C69
(`Props/Division.lean`).
-/

namespace Metaf.Props

open Metaf Metaf.Spec

attribute [local instance] ieee

/-- C21: a keyword, which is not unknown, does not accept the empty text. -/
example : (Group.keyword ⟨.CAVOK⟩).append [] .METAR {} = .ok (.keyword ⟨.CAVOK⟩, .NOT_APPENDED) ∧
    ∀ u, Group.keyword ⟨.CAVOK⟩ ≠ .unknown u := ⟨rfl, nofun⟩

/-- C21: the unknown group accepts it, so that the condition is needed. -/
example : ∃ g, (Group.unknown {}).append [] .METAR {} = .ok (g, .APPENDED) := ⟨_, rfl⟩

set_option maxRecDepth 4000 in
/-- C21: a result with groups of one and of several words. -/
example : ∃ r : ParseResult, Result c!"METAR ZZZZ 041115Z  XXX \tYYY 00000KT" 200 r ∧
    r.groups.map (·.rawString) = [c!"METAR", c!"ZZZZ", c!"041115Z", c!"XXX YYY", c!"00000KT"] := by
  refine ⟨{ reportMetadata := _, groups := _ }, rfl, ?_⟩
  decide +kernel

/-- C69: words which are divided into a group and an unknown word. -/
example : Divided .METAR [c!"CAVOK", c!"XYZ"] [(.keyword ⟨.CAVOK⟩, [c!"CAVOK"]), (.unknown {}, [c!"XYZ"])] := by
  have hv : Written .METAR [c!"CAVOK"] (.keyword ⟨.CAVOK⟩) :=
    .keyword ⟨[.METAR, .TAF], by simp [keywords], by decide⟩
  have hu : ∀ g, ¬ Written .METAR [c!"XYZ"] g := unwritten (by intro i hi; interval_cases i <;> rfl)
  exact .group (ws := [c!"CAVOK"]) hv nofun (by rintro w hw; cases hw; exact apart hv rfl) (.unknown hu .nil)

end Metaf.Props
