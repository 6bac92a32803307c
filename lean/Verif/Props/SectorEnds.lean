import Verif.Props.Distance

/-!
C35: for which directions the enumeration of a sector ends. It does not exactly if one of the two directions is the
unknown direction and the other one is a direction in degrees, whatever its value within 0..360.
-/

namespace Metaf.Props

set_option linter.unusedSectionVars false

variable [FloatSem]

/-- A direction with a value within the circle. -/
def OnCircle (d : Direction) : Prop := d.isValue = true ∧ d.dirDegrees ≤ 360

theorem loop_octants (fuel : Nat) : ∀ i < 8, ∀ acc, Direction.sectorLoop .UNKNOWN fuel (octant i) acc = none := by
  induction fuel with
  | zero => intro i _ acc; rfl
  | succ n ih =>
    intro i hi acc
    have hne : octant i ≠ .UNKNOWN := by
      have : ∀ i < 8, octant i ≠ .UNKNOWN := by decide
      exact this i hi
    obtain ⟨j, hj, e⟩ : ∃ j < 8, Direction.rotateOctantClockwise (octant i) = octant j := by
      have : ∀ i < 8, ∃ j < 8, Direction.rotateOctantClockwise (octant i) = octant j := by decide
      exact this i hi
    simp only [Direction.sectorLoop]
    rw [if_neg hne, e]
    exact ih j hj _

theorem loop_unknown (fuel : Nat) : ∀ i < 8, ∀ acc,
    Direction.sectorLoop (octant i) fuel .NOT_REPORTED acc = none ∧
    Direction.sectorLoop (octant i) fuel .UNKNOWN acc = none := by
  intro i hi
  have h1 : Cardinal.NOT_REPORTED ≠ octant i := by
    have : ∀ i < 8, Cardinal.NOT_REPORTED ≠ octant i := by decide
    exact this i hi
  have h2 : Cardinal.UNKNOWN ≠ octant i := by
    have : ∀ i < 8, Cardinal.UNKNOWN ≠ octant i := by decide
    exact this i hi
  induction fuel with
  | zero => intro acc; exact ⟨rfl, rfl⟩
  | succ n ih =>
    intro acc
    simp only [Direction.sectorLoop]
    rw [if_neg h1, if_neg h2]
    exact ⟨(ih _).1, (ih _).1⟩

theorem cardinal_unknown (d : Direction) : d.cardinal = .UNKNOWN ↔ d.dirType = .UNKNOWN := by
  constructor
  · intro h
    cases hv : d.isValue with
    | true =>
      rcases Nat.lt_or_ge 360 d.dirDegrees with hd | hd
      · rw [(C34_nearest d hv).2 hd] at h
        cases h
      · obtain ⟨i, hi, e, -⟩ := (C34_nearest d hv).1 hd
        rw [e] at h
        have : ∀ i < 8, octant i ≠ .UNKNOWN := by decide
        exact absurd h (this i hi)
    | false =>
      obtain ⟨n, t⟩ := d
      cases t <;> simp [Direction.cardinal, Direction.isValue] at h hv ⊢
  · intro h
    unfold Direction.cardinal
    rw [h]

/-- C35, if both directions are the unknown one: the list has only the unknown direction. -/
theorem C35_unknown_partial (a b : Direction) (ha : a.dirType = .UNKNOWN) (hb : b.dirType = .UNKNOWN) (fuel : Nat)
    (hf : 1 ≤ fuel) :
    ∃ d, Direction.sectorCardinalDirToVector fuel a b = some [d] ∧ d.dirType = .UNKNOWN := by
  obtain ⟨fuel, rfl⟩ : ∃ f, fuel = f + 1 := ⟨fuel - 1, by omega⟩
  unfold Direction.sectorCardinalDirToVector
  rw [(cardinal_unknown a).mpr ha, (cardinal_unknown b).mpr hb]
  exact ⟨_, rfl, rfl⟩

/-- C35: the enumeration ends exactly if it is not the case that one direction is unknown and the other one has a
value within the circle. -/
theorem C35_ends (a b : Direction) :
    (∃ fuel v, Direction.sectorCardinalDirToVector fuel a b = some v) ↔
      ¬ (a.dirType = .UNKNOWN ∧ OnCircle b ∨ OnCircle a ∧ b.dirType = .UNKNOWN) := by
  have oct : ∀ d : Direction, OnCircle d → ∃ i < 8, d.cardinal = octant i := by
    intro d h
    obtain ⟨i, hi, e, -⟩ := (C34_nearest d h.1).1 h.2
    exact ⟨i, hi, e⟩
  have kinds : ∀ d : Direction, OnCircle d ∨ d.dirType = .UNKNOWN ∨
      d.cardinal ∈ [Cardinal.NOT_REPORTED, .VRB, .NDV, .OHD, .ALQDS] := by
    intro d
    cases hv : d.isValue with
    | true =>
      rcases Nat.lt_or_ge 360 d.dirDegrees with hd | hd
      · right; right
        rw [(C34_nearest d hv).2 hd]
        decide
      · exact Or.inl ⟨hv, hd⟩
    | false =>
      right
      obtain ⟨n, t⟩ := d
      cases t <;> simp [Direction.cardinal, Direction.isValue] at hv ⊢
  have hno : ∀ i < 8, Direction.notASector (octant i) = false := by decide
  constructor
  · rintro ⟨fuel, v, h⟩ hc
    unfold Direction.sectorCardinalDirToVector at h
    rcases hc with ⟨ha, hb⟩ | ⟨ha, hb⟩
    · obtain ⟨i, hi, e⟩ := oct b hb
      rw [(cardinal_unknown a).mpr ha, e] at h
      simp only [hno i hi, show Direction.notASector .UNKNOWN = false from rfl, Bool.or_self, Bool.false_eq_true,
        if_false] at h
      rw [(loop_unknown fuel i hi []).2] at h
      cases h
    · obtain ⟨i, hi, e⟩ := oct a ha
      rw [(cardinal_unknown b).mpr hb, e] at h
      simp only [hno i hi, show Direction.notASector .UNKNOWN = false from rfl, Bool.or_self, Bool.false_eq_true,
        if_false] at h
      rw [loop_octants fuel i hi []] at h
      cases h
  · intro hn
    rcases kinds a with ha | ha | ha
    · rcases kinds b with hb | hb | hb
      · obtain ⟨i, j, v, -, -, -, -, h, -⟩ := C35_sector_partial a b ha.1 hb.1 ha.2 hb.2
        exact ⟨8, v, h 8 (le_refl _)⟩
      · exact absurd (Or.inr ⟨ha, hb⟩) hn
      · obtain ⟨v, h, -⟩ := C35_other_partial a b (Or.inr hb)
        exact ⟨0, v, h 0⟩
    · rcases kinds b with hb | hb | hb
      · exact absurd (Or.inl ⟨ha, hb⟩) hn
      · obtain ⟨d, h, -⟩ := C35_unknown_partial a b ha hb 1 (le_refl _)
        exact ⟨1, _, h⟩
      · obtain ⟨v, h, -⟩ := C35_other_partial a b (Or.inr hb)
        exact ⟨0, v, h 0⟩
    · obtain ⟨v, h, -⟩ := C35_other_partial a b (Or.inl ha)
      exact ⟨0, v, h 0⟩

/-- Example: from north to the unknown direction it does not end, from the variable direction to the unknown one it
does. -/
example : (¬ ∃ fuel v, Direction.sectorCardinalDirToVector fuel ⟨360, .VALUE_CARDINAL⟩ ⟨0, .UNKNOWN⟩ = some v) ∧
    ∃ fuel v, Direction.sectorCardinalDirToVector fuel ⟨0, .VARIABLE⟩ ⟨0, .UNKNOWN⟩ = some v := by
  rw [C35_ends, C35_ends]
  simp [OnCircle, Direction.isValue]

end Metaf.Props
