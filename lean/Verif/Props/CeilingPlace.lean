import Verif.Props.Clouds

/-!
C48: the place where the ceiling of the remarks was observed, with the cases kept apart.
-/

namespace Metaf.Props

set_option linter.unusedSectionVars false

variable [FloatSem]

/-- C48: a runway behind the height of the ceiling is taken as the place, otherwise a direction is, and anything else
is left to be a group of its own. -/
theorem C48_place (g : CloudGroup) (s : Str) (hg : g.incompleteText = .CIG_NUM ∨ g.incompleteText = .CHINO) :
    (∀ r, Runway.fromString s true = some r →
      g.append s = ({ g with rw := some r, incompleteText := .NONE }, .APPENDED)) ∧
    (∀ d, Runway.fromString s true = none → Direction.fromCardinalString s = some d →
      g.append s = ({ g with rw := none, dir := some d, incompleteText := .NONE }, .APPENDED)) ∧
    (Runway.fromString s true = none → Direction.fromCardinalString s = none →
      g.append s = ({ g with rw := none, dir := none, incompleteText := .NONE }, .NOT_APPENDED)) := by
  have happ : g.append s = g.appendRunwayOrCardinalDirection s := by
    unfold CloudGroup.append
    rcases hg with h | h <;> rw [h]
  rw [happ]
  unfold CloudGroup.appendRunwayOrCardinalDirection
  refine ⟨?_, ?_, ?_⟩
  · intro r hr
    simp [hr]
  · intro d hr hd
    simp [hr, hd]
  · intro hr hd
    simp [hr, hd]

/-- Example: the runway 04 right, and the north-east. -/
example : Runway.fromString c!"RWY04R" true ≠ none ∧ Runway.fromString c!"NE" true = none ∧
    Direction.fromCardinalString c!"NE" ≠ none := by decide

end Metaf.Props
