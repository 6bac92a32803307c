import Verif.Props.Places
import Verif.Props.Insertion

/-!
C138, reports read without error: in which parts of such a report each type of group is found.
-/

set_option linter.unusedSectionVars false

namespace Metaf.Props

open Metaf Metaf.Spec

/-! ### Specification -/

/-- The parts of a report read without error in which a variety of group is found. In a report
with an error these three varieties may also be elsewhere. -/
def acceptedPlaces : Variety → List ReportPart
  | .keyword .CNL => [.TAF]
  | .keyword .MAINTENANCE_INDICATOR => [.METAR, .RMK]
  | .unknown => [.METAR, .TAF, .RMK]
  | v => placesOf v

variable [FloatIeee]

/-! ### Proof -/

/-- What distinguishes the places in a report read without error. -/
structure FitsPlace (x : GroupInfo) : Prop where
  part : x.reportPart ≠ .UNKNOWN
  cancelled : x.group = .keyword ⟨.CNL⟩ → x.reportPart = .TAF
  maintenance : x.group = .keyword ⟨.MAINTENANCE_INDICATOR⟩ → x.reportPart = .METAR ∨ x.reportPart = .RMK
  unknown : ∀ u, x.group = .unknown u → x.reportPart ≠ .HEADER

theorem opening_fits {p : Place} {ty : ReportType} {hs : List (Str × Group)} (h : Opening p ty hs) :
    ∀ y ∈ hs, y.2 ≠ Group.keyword ⟨.CNL⟩ ∧ y.2 ≠ Group.keyword ⟨.MAINTENANCE_INDICATOR⟩ ∧ ∀ u, y.2 ≠ .unknown u := by
  induction h with
  | start => simp
  | metar | speci | taf => simp
  | cor _ ih | amd _ ih | location _ _ _ ih | time _ _ _ _ _ ih =>
    intro y hy
    rcases List.mem_append.mp hy with hy | hy
    · exact ih y hy
    · rw [List.mem_singleton.mp hy]
      simp

theorem fullHeader_fits {ty : ReportType} {hs : List (Str × Group)} (h : FullHeader ty hs) :
    ∀ y ∈ hs, y.2 ≠ Group.keyword ⟨.CNL⟩ ∧ y.2 ≠ Group.keyword ⟨.MAINTENANCE_INDICATOR⟩ ∧ ∀ u, y.2 ≠ .unknown u := by
  cases h with
  | metar h | taf h | tafTime h =>
    intro y hy
    rcases List.mem_append.mp hy with hy | hy
    · exact opening_fits h y hy
    · rw [List.mem_singleton.mp hy]
      simp [periodGroup]

theorem headerEntries_fit {hs : List (Str × Group)}
    (h : ∀ y ∈ hs, y.2 ≠ Group.keyword ⟨.CNL⟩ ∧ y.2 ≠ Group.keyword ⟨.MAINTENANCE_INDICATOR⟩ ∧ ∀ u, y.2 ≠ .unknown u) :
    ∀ x ∈ headerEntries hs, FitsPlace x := by
  intro x hx
  obtain ⟨y, hy, rfl⟩ := List.mem_map.mp hx
  obtain ⟨h1, h2, h3⟩ := h y hy
  exact ⟨nofun, fun h => absurd h h1, fun h => absurd h h2, fun u h => absurd h (h3 u)⟩

/-- The keyword of an entry of the body is one of its words. -/
theorem body_keyword {p : ReportPart} {us : List Str} {items : List (Group × List Str)} (hd : Divided p us items)
    {k : KeywordType} {x : GroupInfo} (hx : x ∈ entries p items) (hg : x.group = .keyword ⟨k⟩) :
    ∃ w ∈ us, IsKeyword p w k := by
  obtain ⟨⟨g, wl⟩, hi, e⟩ := entries_group items x hx
  rw [hg] at e
  have hw := divided_words hd
  have : ∀ {us items}, Divided p us items → (.keyword ⟨k⟩, wl) ∈ items → Written p wl (.keyword ⟨k⟩) := by
    intro us items hd hm
    induction hd with
    | nil => cases hm
    | group h1 h2 _ _ ih =>
      rcases List.mem_cons.mp hm with hm | hm
      · cases hm
        exact h1
      · exact ih hm
    | broken _ _ _ _ ih =>
      rcases List.mem_cons.mp hm with hm | hm
      · cases hm
      · exact ih hm
    | unknown _ _ ih =>
      rcases List.mem_cons.mp hm with hm | hm
      · cases hm
      · exact ih hm
  change Group.keyword ⟨k⟩ = g at e
  subst e
  have hk := this hd hi
  generalize hk' : Group.keyword ⟨k⟩ = k at hk
  cases hk with
  | @keyword w k h =>
    injection hk' with hk'
    injection hk' with hk'
    subst hk'
    refine ⟨w, ?_, h⟩
    rw [hw]
    exact List.mem_flatMap.mpr ⟨_, hi, by simp⟩
  | _ => cases hk'

theorem body_fits {ty : ReportType} {us : List Str} {items : List (Group × List Str)}
    (hd : Divided (bodyPart ty) us items) (hs : ∀ w ∈ us, w ∉ stops (bodyPart ty)) :
    ∀ x ∈ entries (bodyPart ty) items, FitsPlace x := by
  intro x hx
  have hp : x.reportPart = bodyPart ty := entries_part _ _ x hx
  refine ⟨?_, ?_, ?_, ?_⟩
  · rw [hp]
    cases ty <;> exact nofun
  · intro hg
    obtain ⟨w, hw, ps, h1, -⟩ := body_keyword hd hx hg
    have : w = c!"CNL" := by
      simp only [keywords, List.mem_cons, Prod.mk.injEq, List.not_mem_nil, or_false, reduceCtorEq, false_and, and_false,
        or_self, false_or] at h1
      exact h1.1
    refine absurd ?_ (hs w hw)
    rw [this]
    cases ty <;> decide
  · intro hg
    obtain ⟨w, hw, ps, h1, -⟩ := body_keyword hd hx hg
    have : w = c!"$" := by
      simp only [keywords, List.mem_cons, Prod.mk.injEq, List.not_mem_nil, or_false, reduceCtorEq, false_and, and_false,
        false_or] at h1
      exact h1.1
    left
    rw [hp]
    cases ty with
    | TAF =>
      refine absurd ?_ (hs w hw)
      rw [this]
      decide
    | _ => rfl
  · intro u _
    rw [hp]
    cases ty <;> exact nofun

theorem after_fits {err e : ReportError} {ws : List Str} {n : Nat} {gs : List GroupInfo} (h : After err ws n gs e)
    (he : e = .NONE) (herr : err ≠ .NONE) : gs = [] := by
  cases h with
  | nothing => rfl
  | word => exact absurd he herr

theorem meaning_fits {ty : ReportType} {now : Option Nat} {ws : List Str} {n : Nat} {gs : List GroupInfo} {e : ReportError}
    (h : BodyMeaning ty now ws n gs e) (he : e = .NONE) : ∀ x ∈ gs, x.group = .keyword ⟨.CNL⟩ ∧ x.reportPart = .RMK ∨ FitsPlace x := by
  have hbp : bodyPart ty ≠ .UNKNOWN ∧ bodyPart ty ≠ .HEADER := by cases ty <;> exact ⟨nofun, nofun⟩
  cases h with
  | nothing => cases he
  | nil h =>
    rw [after_fits h he nofun]
    intro x hx
    rw [List.mem_singleton.mp hx]
    exact Or.inr ⟨hbp.1, nofun, nofun, nofun⟩
  | cnl ht h =>
    rw [after_fits h he nofun, ht]
    intro x hx
    rw [List.mem_singleton.mp hx]
    exact Or.inr ⟨nofun, fun _ => rfl, nofun, nofun⟩
  | cnlMetar => cases he
  | body _ h1 h2 => exact fun x hx => Or.inr (body_fits h2 h1 x hx)
  | ended => cases he
  | maintenance => cases he
  | remarks h1 h2 h3 =>
    intro x hx
    rcases List.mem_append.mp hx with hx | hx
    · exact Or.inr (body_fits h2 h1 x hx)
    · rcases List.mem_cons.mp hx with rfl | hx
      · exact Or.inr ⟨hbp.1, nofun, nofun, nofun⟩
      · cases h3 with
        | maintenance => cases he
        | all _ _ =>
          have hp : x.reportPart = .RMK := entries_part _ _ x hx
          by_cases hg : x.group = .keyword ⟨.CNL⟩
          · exact Or.inl ⟨hg, hp⟩
          · refine Or.inr ⟨?_, fun h => absurd h hg, fun _ => Or.inr hp, fun u _ => ?_⟩ <;> rw [hp] <;> exact nofun

/-! ### Claims -/

/-- C138. Every group of a report read without error is in one of these parts. -/
theorem C138_accepted (report : Str) (limit : Nat) (r : ParseResult) (h : Result report limit r)
    (he : r.reportMetadata.error = .NONE) : ∀ x ∈ r.groups, x.reportPart ∈ acceptedPlaces (varietyOf x.group) := by
  intro x hx
  have hplace := C138_places report limit r h x hx
  have hfits : x.group = .keyword ⟨.CNL⟩ ∧ x.reportPart = .RMK ∨ FitsPlace x := by
    have ho := outcome_of (groups_tokens report) h
    generalize r.reportMetadata.error = e at ho he
    generalize r.groups = gs at ho hx
    generalize r.reportMetadata.type = ty at ho
    generalize tokens report = ws at ho
    cases ho with
    | tooLarge => cases he
    | third => cases he
    | within hm _ =>
      cases hm with
      | empty => cases he
      | cut => cases he
      | wrong _ h => subst he; cases h
      | nil hop _ ha =>
        rw [after_fits ha he nofun] at hx
        rcases List.mem_append.mp hx with hx | hx
        · exact Or.inr (headerEntries_fit (opening_fits hop) x hx)
        · rw [List.mem_singleton.mp hx]
          exact Or.inr ⟨nofun, nofun, nofun, nofun⟩
      | typed hf hb =>
        rcases List.mem_append.mp hx with hx | hx
        · exact Or.inr (headerEntries_fit (fullHeader_fits hf) x hx)
        · exact meaning_fits hb he x hx
      | untyped hf _ _ hb =>
        rcases List.mem_append.mp hx with hx | hx
        · exact Or.inr (headerEntries_fit (opening_fits hf) x hx)
        · exact meaning_fits hb he x hx
  rcases hfits with ⟨h1, h2⟩ | hf
  · rw [h1, h2] at hplace
    simp [varietyOf, placesOf] at hplace
  · cases hg : x.group with
    | keyword k =>
      obtain ⟨k⟩ := k
      have h1 := hf.cancelled
      have h2 := hf.maintenance
      rw [hg] at hplace h1 h2
      cases k with
      | CNL => simp [varietyOf, acceptedPlaces, h1 rfl]
      | MAINTENANCE_INDICATOR => simpa [varietyOf, acceptedPlaces] using h2 rfl
      | _ => exact hplace
    | unknown u =>
      have h1 := hf.unknown u hg
      have h2 := hf.part
      cases hp : x.reportPart <;> simp_all [varietyOf, acceptedPlaces]
    | _ => rw [hg] at hplace; exact hplace

/-- Reports read without error in which they are found. -/
def acceptedSamples : List Str :=
  samples ++ [c!"SPECI ABCD NIL", c!"TAF AMD ABCD NIL", c!"TAF ABCD 010000Z 0100/0200 10005KT"]

/-- What is found in a report if it is read without error, and where. -/
def foundAccepted (report : Str) : List (ReportPart × Variety) :=
  match Parser.parse report 200 with
  | .ok r => if r.reportMetadata.error = .NONE then r.groups.map fun x => (x.reportPart, varietyOf x.group) else []
  | .error _ => []

theorem foundAccepted_result {report : Str} {p : ReportPart} {v : Variety} (h : (p, v) ∈ foundAccepted report) :
    ∃ r, Result report 200 r ∧ r.reportMetadata.error = .NONE ∧ ∃ x ∈ r.groups, x.reportPart = p ∧ varietyOf x.group = v := by
  unfold foundAccepted at h
  split at h
  · rename_i r hr
    split at h
    · rename_i he
      obtain ⟨x, hx, e⟩ := List.mem_map.mp h
      cases e
      exact ⟨r, hr, he, x, hx, rfl, rfl⟩
    · cases h
  · cases h

theorem acceptedSamples_cover : (let l := acceptedSamples.flatMap foundAccepted
    varieties.all fun v => (acceptedPlaces v).all fun p => l.any fun x => x == (p, v)) = true := by kernel_rfl

/-- C138. In each of these parts a group of the kind and type is found in some report read without error. -/
theorem C138_accepted_found (v : Variety) (p : ReportPart) (h : p ∈ acceptedPlaces v) :
    ∃ report r, Result report 200 r ∧ r.reportMetadata.error = .NONE ∧
      ∃ x ∈ r.groups, x.reportPart = p ∧ varietyOf x.group = v := by
  have h1 := List.all_eq_true.mp (List.all_eq_true.mp acceptedSamples_cover v (varieties_all v)) p h
  obtain ⟨x, hx, e⟩ := List.any_eq_true.mp h1
  obtain ⟨s, -, hs⟩ := List.mem_flatMap.mp hx
  obtain rfl : x = (p, v) := by simpa using e
  exact ⟨s, foundAccepted_result hs⟩

/-- In a report read without error the header has no unknown words, -/
example (report : Str) (limit : Nat) (r : ParseResult) (h : Result report limit r) (he : r.reportMetadata.error = .NONE)
    (x : GroupInfo) (hx : x ∈ r.groups) (hp : x.reportPart = .HEADER) : ∀ u, x.group ≠ .unknown u := by
  intro u hu
  have := C138_accepted report limit r h he x hx
  rw [hp, hu] at this
  simp [varietyOf, acceptedPlaces] at this

/-- but in a report with an error it may have. -/
example : ∃ report r, Result report 200 r ∧ r.reportMetadata.error ≠ .NONE ∧
    ∃ x ∈ r.groups, x.reportPart = .HEADER ∧ x.group = .unknown {} :=
  ⟨c!"METAR XXX", _, rfl, by decide, _, List.mem_cons_of_mem _ (List.mem_cons_self ..), rfl, rfl⟩

end Metaf.Props
