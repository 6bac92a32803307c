import Verif.Props.Sectors
import Verif.Model.GroupsD

/-!
Directions and sectors as written in the remarks on lightning and phenomena in the vicinity, and
groups made of several texts. Used by the properties C60, C61 and C62.
-/

namespace Metaf.Props

set_option linter.unusedSectionVars false

open Metaf Metaf.Spec Metaf.Direction

variable [FloatSem]

/-- The group made by recognising the first text and adding each of the following ones; `none` if
the first text is not recognised or a following one is not added. -/
def taken {G : Type} (parse : Str → Option G) (append : G → Str → G × AppendResult) :
    List Str → Option G
  | [] => none
  | w :: rest => (parse w).bind fun g => rest.foldlM (fun g w =>
      match append g w with
      | (g', .APPENDED) => some g'
      | _ => none) g

theorem taken_snoc {G : Type} {parse : Str → Option G} {append : G → Str → G × AppendResult}
    {ws : List Str} (h : ws ≠ []) (w : Str) (g' : G) : taken parse append (ws ++ [w]) = some g' ↔
      ∃ g, taken parse append ws = some g ∧ append g w = (g', .APPENDED) := by
  cases ws with
  | nil => exact absurd rfl h
  | cons x t =>
    simp only [taken, List.cons_append, List.foldlM_append, List.foldlM_cons, List.foldlM_nil,
      Option.bind_eq_some_iff, bind]
    constructor
    · rintro ⟨g0, h0, g, hg, g2, h2, h3⟩
      refine ⟨g, ⟨g0, h0, hg⟩, ?_⟩
      cases Option.some.inj h3
      cases ha : append g w with
      | mk a r =>
        cases r <;> simp only [ha] at h2 <;> cases h2
        rfl
    · rintro ⟨g, ⟨g0, h0, hg⟩, ha⟩
      exact ⟨g0, h0, g, hg, g', by rw [ha], rfl⟩

theorem taken_one {G : Type} {parse : Str → Option G} {append : G → Str → G × AppendResult}
    (w : Str) : taken parse append [w] = parse w := by
  cases h : parse w <;> simp [taken, h]

/-- Texts of directions and sectors: the directions a group keeps for them and the cardinal
directions they stand for. -/
inductive HeadingText : Str → Option Direction → Option Direction → List Cardinal → Prop
  | octant {w n} : (w, n) ∈ octantNames →
      HeadingText w (some ⟨n, .VALUE_CARDINAL⟩) none [octant (n / 45 % 8)]
  | ndv : HeadingText c!"NDV" (some ⟨0, .NDV⟩) none [.NDV]
  | overhead : HeadingText c!"OHD" (some ⟨0, .OVERHEAD⟩) none [.OHD]
  | allQuadrants : HeadingText c!"ALQDS" (some ⟨0, .ALQDS⟩) none [.ALQDS]
  | sector {x n mid y m} : (x, n) ∈ octantNames → (y, m) ∈ octantNames → (∀ w ∈ mid, IsOctant w) →
      HeadingText (dashed x (mid ++ [y])) (some ⟨n, .VALUE_CARDINAL⟩) (some ⟨m, .VALUE_CARDINAL⟩)
        (sweep (n / 45 % 8) (m / 45 % 8))

/-- How the code reads a direction or a sector. -/
def heading (s : Str) : Option (Option Direction × Option Direction) :=
  match fromCardinalString s true with
  | some d => some (some d, none)
  | none =>
    match fromSectorString s with
    | some (a, b) => some (some a, some b)
    | none => none

theorem cardinal_no_dash {s : Str} {d : Direction} {ohd unk : Bool}
    (h : fromCardinalString s ohd unk = some d) : '-' ∉ s := by
  rcases (C47_cardinal s ohd unk d).mp h with ⟨n, hn, -⟩ | ⟨rfl, -⟩ | ⟨-, rfl, -⟩ | ⟨-, rfl, -⟩ | ⟨-, rfl, -⟩
  · exact octant_no_dash ⟨n, hn⟩
  all_goals decide

theorem dashed_dash (x : Str) (mid : List Str) (y : Str) : '-' ∈ dashed x (mid ++ [y]) := by
  cases mid <;> simp [dashed]

theorem heading_iff (s : Str) (f t : Option Direction) :
    heading s = some (f, t) ↔ ∃ c, HeadingText s f t c := by
  unfold heading
  constructor
  · intro h
    cases hc : fromCardinalString s true with
    | some d =>
      simp only [hc, Option.some.injEq, Prod.mk.injEq] at h
      obtain ⟨rfl, rfl⟩ := h
      rcases (C47_cardinal s true false d).mp hc with ⟨n, hn, rfl⟩ | ⟨rfl, rfl⟩ | ⟨-, rfl, rfl⟩ |
        ⟨-, rfl, rfl⟩ | ⟨h, -⟩
      · exact ⟨_, .octant hn⟩
      · exact ⟨_, .ndv⟩
      · exact ⟨_, .overhead⟩
      · exact ⟨_, .allQuadrants⟩
      · cases h
    | none =>
      cases hs : fromSectorString s with
      | none => simp [hc, hs] at h
      | some p =>
        obtain ⟨a, b⟩ := p
        simp only [hc, hs, Option.some.injEq, Prod.mk.injEq] at h
        obtain ⟨rfl, rfl⟩ := h
        obtain ⟨x, n, mid, y, m, hn, hm, hmid, rfl, rfl, rfl⟩ := (C59_sector s a b).mp hs
        exact ⟨_, .sector hn hm hmid⟩
  · rintro ⟨c, h⟩
    cases h with
    | octant hn =>
      rw [(C47_cardinal _ true false _).mpr (Or.inl ⟨_, hn, rfl⟩)]
    | ndv => rfl
    | overhead => rfl
    | allQuadrants => rfl
    | @sector x n mid y m hn hm hmid =>
      have h1 : fromCardinalString (dashed x (mid ++ [y])) true = none := by
        cases hc : fromCardinalString (dashed x (mid ++ [y])) true with
        | none => rfl
        | some d => exact absurd (dashed_dash x mid y) (cardinal_no_dash hc)
      rw [h1, (C59_sector _ _ _).mpr ⟨x, n, mid, y, m, hn, hm, hmid, rfl, rfl, rfl⟩]

/-- No keyword of the remarks concerned is a direction. -/
theorem heading_keyword {s : Str} (h : s ∈ [c!"AND", c!"DSNT", c!"VC", c!"MOV", c!"CLD", []]) :
    heading s = none := by
  simp only [List.mem_cons, List.not_mem_nil, or_false] at h
  rcases h with rfl | rfl | rfl | rfl | rfl | rfl <;> decide +kernel

theorem heading_from {s : Str} {f t : Option Direction} {c : List Cardinal}
    (h : HeadingText s f t c) : ∃ d, f = some d := by
  cases h <;> exact ⟨_, rfl⟩

/-- The cardinal directions listed for a direction or sector as written. -/
theorem heading_vector {s : Str} {f t : Option Direction} {c : List Cardinal}
    (h : HeadingText s f t c) : c.Nodup ∧ ∃ v, v.map (·.cardinal) = c ∧
      ∀ fuel, 8 ≤ fuel → sectorCardinalDirToVector fuel (f.getD {}) (t.getD {}) = some v := by
  have idx : ∀ {w k}, (w, k) ∈ octantNames →
      k ≤ 360 ∧ (⟨k, .VALUE_CARDINAL⟩ : Direction).cardinal = octant (k / 45 % 8) ∧ k / 45 % 8 < 8 := by
    intro w k hk
    simp only [octantNames, List.mem_cons, Prod.mk.injEq, List.not_mem_nil, or_false] at hk
    rcases hk with ⟨-, rfl⟩ | ⟨-, rfl⟩ | ⟨-, rfl⟩ | ⟨-, rfl⟩ | ⟨-, rfl⟩ | ⟨-, rfl⟩ | ⟨-, rfl⟩ | ⟨-, rfl⟩ <;>
      decide
  cases h with
  | @octant w n hn =>
    refine ⟨by simp, ?_⟩
    obtain ⟨v, hv, h2⟩ := C35_other_partial ⟨n, .VALUE_CARDINAL⟩ {} (Or.inr (by decide))
    refine ⟨v, ?_, fun fuel _ => hv fuel⟩
    rw [h2, (idx hn).2.1]
    have : ∀ i < 8, [octant i, ({} : Direction).cardinal].filter (· ≠ .NOT_REPORTED) = [octant i] := by
      decide
    exact this _ (idx hn).2.2
  | ndv => exact ⟨by simp, _, rfl, fun _ _ => rfl⟩
  | overhead => exact ⟨by simp, _, rfl, fun _ _ => rfl⟩
  | allQuadrants => exact ⟨by simp, _, rfl, fun _ _ => rfl⟩
  | @sector x n mid y m hn hm hmid =>
    obtain ⟨i, j, v, hi, hj, h1, h2, h3, h4, h5, -⟩ :=
      C35_sector_partial ⟨n, .VALUE_CARDINAL⟩ ⟨m, .VALUE_CARDINAL⟩ rfl rfl (idx hn).1 (idx hm).1
    have inj : ∀ i < 8, ∀ j < 8, octant i = octant j → i = j := by decide
    obtain rfl := inj i hi _ (idx hn).2.2 (h1.symm.trans (idx hn).2.1)
    obtain rfl := inj j hj _ (idx hm).2.2 (h2.symm.trans (idx hm).2.1)
    exact ⟨h5, v, h4, h3⟩

theorem merge_spec (v w : List Direction) (hv : (v.map (·.cardinal)).Nodup) :
    ((mergeDirections v w).map (·.cardinal)).Nodup ∧
    v.map (·.cardinal) <+: (mergeDirections v w).map (·.cardinal) ∧
    ∀ c, c ∈ (mergeDirections v w).map (·.cardinal) ↔
      c ∈ v.map (·.cardinal) ∨ c ∈ w.map (·.cardinal) := by
  induction w generalizing v with
  | nil => exact ⟨hv, List.prefix_refl _, by simp [mergeDirections]⟩
  | cons x t ih =>
    unfold mergeDirections
    by_cases hx : (v.any fun r => r.cardinal == x.cardinal) = true
    · rw [if_pos hx]
      obtain ⟨h1, h2, h3⟩ := ih v hv
      refine ⟨h1, h2, fun c => ?_⟩
      rw [h3 c, List.map_cons, List.mem_cons]
      have : x.cardinal ∈ v.map (·.cardinal) := by
        obtain ⟨r, hr, e⟩ := List.any_eq_true.mp hx
        exact List.mem_map.mpr ⟨r, hr, by simpa using e⟩
      constructor
      · rintro (h | h)
        · exact Or.inl h
        · exact Or.inr (Or.inr h)
      · rintro (h | rfl | h)
        · exact Or.inl h
        · exact Or.inl this
        · exact Or.inr h
    · rw [if_neg hx]
      have hn : x.cardinal ∉ v.map (·.cardinal) := by
        intro hm
        obtain ⟨r, hr, e⟩ := List.mem_map.mp hm
        exact hx (List.any_eq_true.mpr ⟨r, hr, by simpa using e⟩)
      obtain ⟨h1, h2, h3⟩ := ih (v ++ [x]) (by
        rw [List.map_append, List.map_singleton, List.nodup_append]
        refine ⟨hv, by simp, ?_⟩
        intro a ha b hb
        rw [List.mem_singleton.mp hb]
        rintro rfl
        exact hn ha)
      refine ⟨h1, (List.prefix_append _ [x.cardinal]).trans (by simpa using h2), fun c => ?_⟩
      rw [h3 c]
      simp only [List.map_append, List.map_cons, List.map_nil, List.mem_append, List.mem_cons,
        List.not_mem_nil, or_false]
      tauto

/-- The directions of a group with none, one or two headings. -/
theorem two_headings {f1 t1 f2 t2 : Option Direction} {c1 c2 : List Cardinal}
    (h1 : (f1 = none ∧ t1 = none ∧ c1 = []) ∨ ∃ s, HeadingText s f1 t1 c1)
    (h2 : (f2 = none ∧ t2 = none ∧ c2 = []) ∨ ∃ s, HeadingText s f2 t2 c2) :
    ∃ v, (∀ fuel, 8 ≤ fuel → twoSectorDirections fuel f1 t1 f2 t2 = some v) ∧
      (v.map (·.cardinal)).Nodup ∧ c1 <+: v.map (·.cardinal) ∧
      ∀ c, c ∈ v.map (·.cardinal) ↔ c ∈ c1 ∨ c ∈ c2 := by
  have key : ∀ {f t : Option Direction} {c : List Cardinal},
      ((f = none ∧ t = none ∧ c = []) ∨ ∃ s, HeadingText s f t c) →
      c.Nodup ∧ ∃ v, v.map (·.cardinal) = c ∧
        ∀ fuel, 8 ≤ fuel → sectorCardinalDirToVector fuel (f.getD {}) (t.getD {}) = some v := by
    rintro f t c (⟨rfl, rfl, rfl⟩ | ⟨s, h⟩)
    · exact ⟨by simp, [], rfl, fun _ _ => rfl⟩
    · exact heading_vector h
  obtain ⟨n1, v1, rfl, e1⟩ := key h1
  obtain ⟨n2, v2, rfl, e2⟩ := key h2
  refine ⟨mergeDirections v1 v2, fun fuel hf => ?_, merge_spec v1 v2 n1⟩
  unfold twoSectorDirections
  rw [e1 fuel hf, e2 fuel hf]

end Metaf.Props
