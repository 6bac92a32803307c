import Lean.Elab.Tactic.Basic
import Lean.Meta.AppBuilder
import Verif.Base

/-!
Small general lemmas and tactics.
-/

namespace Metaf

theorem ite_eq_cases {α : Type} {c : Prop} [Decidable c] {a b p : α}
    (h : (if c then a else b) = p) : (c ∧ a = p) ∨ (¬ c ∧ b = p) := by
  by_cases hc : c
  · left; rw [if_pos hc] at h; exact ⟨hc, h⟩
  · right; rw [if_neg hc] at h; exact ⟨hc, h⟩

/-- Splits a hypothesis `(if .. then .. else if ..) = x` into its cases. -/
macro "ite_cases" h:ident : tactic =>
  `(tactic| repeat'
      (((with_reducible refine Or.elim (ite_eq_cases $h) ?_ ?_) <;> clear $h) <;>
        rintro ⟨_, $h⟩))

open Lean Elab Tactic Meta in
/-- Closes an equation by reflexivity, checked by the kernel only. -/
elab "kernel_rfl" : tactic => do
  let g ← getMainGoal
  let t ← instantiateMVars (← g.getType)
  let some (_, a, _) := t.eq? | throwError "kernel_rfl: not an equation"
  g.assign (← mkEqRefl a)

end Metaf
