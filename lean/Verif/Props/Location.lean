import Verif.Model.GroupsA
import Verif.Proofs.RegexText
import Verif.Props.Values

/-!
C49: location and release time.
-/

namespace Metaf.Props

variable [FloatSem]

open Metaf.Spec

/-- A capital letter. -/
def Capital (c : Char) : Prop := 'A' ≤ c ∧ c ≤ 'Z'

/-- A decimal digit. -/
def Digit (c : Char) : Prop := '0' ≤ c ∧ c ≤ '9'

theorem inSet_code {c : Char} : Rx.inSet [('A', 'Z'), ('0', '9')] c = true ↔ Capital c ∨ Digit c := by
  simp only [Rx.inSet, List.any_cons, List.any_nil, Bool.or_false, Bool.and_eq_true, Bool.or_eq_true,
    decide_eq_true_eq]
  rfl

theorem location_match {s : Str} : (∃ c, LocationGroup.rgx.Match s c) ↔
    ∃ a b c d, s = [a, b, c, d] ∧ Capital a ∧ (Capital b ∨ Digit b) ∧ (Capital c ∨ Digit c) ∧
      (Capital d ∨ Digit d) := by
  simp only [LocationGroup.rgx, Rx.rep, Rx.match_seq, Rx.match_AZ, Rx.match_set, inSet_code]
  constructor
  · rintro ⟨_, _, _, _, _, ⟨a, ha, rfl, rfl⟩, ⟨_, _, _, _, ⟨b, hb, rfl, rfl⟩,
      ⟨_, _, _, _, ⟨c, hc, rfl, rfl⟩, ⟨d, hd, rfl, rfl⟩, rfl, rfl⟩, rfl, rfl⟩, rfl, rfl⟩
    exact ⟨a, b, c, d, rfl, ha, hb, hc, hd⟩
  · rintro ⟨a, b, c, d, rfl, ha, hb, hc, hd⟩
    exact ⟨[], [a], [b, c, d], [], [], ⟨a, ha, rfl, rfl⟩, ⟨[b], [c, d], [], [], ⟨b, hb, rfl, rfl⟩,
      ⟨[c], [d], [], [], ⟨c, hc, rfl, rfl⟩, ⟨d, hd, rfl, rfl⟩, rfl, rfl⟩, rfl, rfl⟩, rfl, rfl⟩

/-- C49: a location is recognised in the report header only, and exactly when the text is a capital
letter and three capital letters or digits; `toString` returns the text. -/
theorem C49_location (s : Str) (part : ReportPart) (g : LocationGroup) :
    LocationGroup.parse s part = some g ↔
      part = .HEADER ∧ g.toString = s ∧
      ∃ a b c d, s = [a, b, c, d] ∧ Capital a ∧ (Capital b ∨ Digit b) ∧ (Capital c ∨ Digit c) ∧
        (Capital d ∨ Digit d) := by
  unfold LocationGroup.parse
  by_cases hp : part = .HEADER
  swap
  · rw [if_pos hp]; simp [hp]
  rw [if_neg (by simp [hp])]
  rw [← location_match, ← regexMatch_isSome_iff]
  cases hm : regexMatch LocationGroup.rgx s with
  | none => simp
  | some m =>
    obtain ⟨a, b, c, d, rfl, -⟩ := location_match.mp ⟨m, regexMatch_sound hm⟩
    obtain ⟨l⟩ := g
    simp only [Option.isNone_some, Bool.false_eq_true, if_false, Option.some.injEq,
      LocationGroup.mk.injEq, LocationGroup.toString, Option.isSome_some, and_true, hp, true_and]
    exact eq_comm

theorem time_match {s : Str} : (∃ c, ReportTimeGroup.rgx.Match s c) ↔
    ∃ d h m, d < 100 ∧ h < 100 ∧ m < 100 ∧ s = decimal 2 d ++ decimal 2 h ++ decimal 2 m ++ c!"Z" := by
  simp only [ReportTimeGroup.rgx, Rx.match_seq, Rx.match_d, Rx.match_chr]
  constructor
  · rintro ⟨_, _, _, _, _, ⟨a, ha, rfl, rfl⟩, ⟨_, _, _, _, ⟨b, hb, rfl, rfl⟩,
      ⟨_, _, _, _, ⟨c, hc, rfl, rfl⟩, ⟨_, _, _, _, ⟨d, hd, rfl, rfl⟩, ⟨_, _, _, _, ⟨e, he, rfl, rfl⟩,
      ⟨_, _, _, _, ⟨f, hf, rfl, rfl⟩, ⟨rfl, rfl⟩, rfl, rfl⟩, rfl, rfl⟩, rfl, rfl⟩, rfl, rfl⟩, rfl, rfl⟩,
      rfl, rfl⟩
    obtain ⟨x, hx, h1⟩ := two_digits ha hb
    obtain ⟨y, hy, h2⟩ := two_digits hc hd
    obtain ⟨z, hz, h3⟩ := two_digits he hf
    exact ⟨x, y, z, hx, hy, hz, by rw [← h1, ← h2, ← h3]; rfl⟩
  · rintro ⟨x, y, z, hx, hy, hz, rfl⟩
    obtain ⟨a, b, ha, hb, h1⟩ := decimal_two_digits x
    obtain ⟨c, d, hc, hd, h2⟩ := decimal_two_digits y
    obtain ⟨e, f, he, hf, h3⟩ := decimal_two_digits z
    rw [h1, h2, h3]
    exact ⟨[], [a], [b, c, d, e, f, 'Z'], [], [], ⟨a, ha, rfl, rfl⟩,
      ⟨[b], [c, d, e, f, 'Z'], [], [], ⟨b, hb, rfl, rfl⟩,
      ⟨[c], [d, e, f, 'Z'], [], [], ⟨c, hc, rfl, rfl⟩, ⟨[d], [e, f, 'Z'], [], [], ⟨d, hd, rfl, rfl⟩,
      ⟨[e], [f, 'Z'], [], [], ⟨e, he, rfl, rfl⟩, ⟨[f], ['Z'], [], [], ⟨f, hf, rfl, rfl⟩, ⟨rfl, rfl⟩,
      rfl, rfl⟩, rfl, rfl⟩, rfl, rfl⟩, rfl, rfl⟩, rfl, rfl⟩, rfl, rfl⟩

/-- C49: a release time is recognised in the report header only, and exactly when the text is six
digits and `Z`; the group holds the day, hour and minute written. -/
theorem C49_time (s : Str) (part : ReportPart) (g : ReportTimeGroup) :
    ReportTimeGroup.parse s part = some g ↔
      part = .HEADER ∧ ∃ d h m, d < 100 ∧ h < 100 ∧ m < 100 ∧
        s = decimal 2 d ++ decimal 2 h ++ decimal 2 m ++ c!"Z" ∧ g.t = ⟨some d, h, m⟩ := by
  unfold ReportTimeGroup.parse
  by_cases hp : part = .HEADER
  swap
  · rw [if_pos hp]; simp [hp]
  rw [if_neg (by simp [hp])]
  have hsub : ∀ d h m : Nat, substr (decimal 2 d ++ decimal 2 h ++ decimal 2 m ++ c!"Z") 0 6 =
      decimal 2 d ++ decimal 2 h ++ decimal 2 m := by intro d h m; rfl
  have hval : ∀ d h m : Nat, d < 100 → h < 100 → m < 100 →
      MetafTime.fromStringDDHHMM (decimal 2 d ++ decimal 2 h ++ decimal 2 m) = some ⟨some d, h, m⟩ := by
    intro d h m hd hh hm
    rw [C25_ddhhmm]
    exact ⟨hh, hm, by rintro _ ⟨⟩; exact hd, rfl⟩
  constructor
  · intro h
    cases hm : regexMatch ReportTimeGroup.rgx s with
    | none => rw [hm] at h; cases h
    | some m =>
      obtain ⟨d, hr, mn, hd, hh, hmn, rfl⟩ := time_match.mp ⟨m, regexMatch_sound hm⟩
      rw [if_neg (by rw [hm]; simp), hsub, hval d hr mn hd hh hmn] at h
      obtain rfl := Option.some.inj h
      exact ⟨hp, d, hr, mn, hd, hh, hmn, rfl, rfl⟩
  · rintro ⟨-, d, hr, mn, hd, hh, hmn, rfl, hg⟩
    obtain ⟨t⟩ := g
    simp only at hg
    subst hg
    have := regexMatch_isSome_iff.mpr (time_match.mpr ⟨d, hr, mn, hd, hh, hmn, rfl⟩)
    obtain ⟨m, hm⟩ := Option.isSome_iff_exists.mp this
    rw [if_neg (by rw [hm]; simp), hsub, hval d hr mn hd hh hmn]
    rfl

/-- C49: a release time is valid exactly when there is a day, and day, hour and minute are valid. -/
theorem C49_time_valid (g : ReportTimeGroup) :
    g.isValid = true ↔ ∃ d, g.t.dayValue = some d ∧ 1 ≤ d ∧ d ≤ 31 ∧ g.t.hourValue ≤ 24 ∧ g.t.minuteValue ≤ 59 := by
  obtain ⟨⟨day, h, m⟩⟩ := g
  have := C25_valid ⟨day, h, m⟩
  simp only [ReportTimeGroup.isValid, Bool.and_eq_true, this]
  cases day <;> simp [and_assoc]

example : (ReportTimeGroup.mk ⟨some 31, 24, 59⟩).isValid = true ∧ (ReportTimeGroup.mk {}).isValid = false := by
  decide

example : LocationGroup.parse c!"EGYP" .HEADER = some ⟨c!"EGYP"⟩ ∧
    LocationGroup.parse c!"E2YP" .HEADER = some ⟨c!"E2YP"⟩ ∧
    LocationGroup.parse c!"2EYP" .HEADER = none ∧
    ReportTimeGroup.parse c!"041115Z" .HEADER = some ⟨⟨some 4, 11, 15⟩⟩ := by decide +kernel

end Metaf.Props
