import Verif.Props.AnyReport

/-!
Specification of the whole result of parsing: what the words of a report mean, for all words and every
limit on the number of groups.
-/

set_option linter.unusedSectionVars false

namespace Metaf.Spec

open Metaf.Props

variable [FloatIeee]

/-! ### The header -/

/-- How far the header of a report has been written: nothing yet, the type of the report, the type and the
mark of an amendment or correction, the location, or the location and the time of the report with more to
follow. -/
inductive Place
  | start | type | corrected | location | time
  deriving DecidableEq, Repr

/-- The words of a header, each with the group it makes up. -/
abbrev Words := List (Str × Group)

/-- `Opening p ty hs`: the words `hs` are the beginning of the header of a report of type `ty` up to the
place `p`, and the header is not complete. The type is unknown if the report does not begin with it. -/
inductive Opening : Place → ReportType → Words → Prop
  | start : Opening .start .UNKNOWN []
  | metar : Opening .type .METAR [(c!"METAR", .keyword ⟨.METAR⟩)]
  | speci : Opening .type .METAR [(c!"SPECI", .keyword ⟨.SPECI⟩)]
  | taf : Opening .type .TAF [(c!"TAF", .keyword ⟨.TAF⟩)]
  | cor {ty hs} : Opening .type ty hs → Opening .corrected ty (hs ++ [(c!"COR", .keyword ⟨.COR⟩)])
  | amd {hs} : Opening .type .TAF hs → Opening .corrected .TAF (hs ++ [(c!"AMD", .keyword ⟨.AMD⟩)])
  | location {p ty hs l} : p = .start ∨ p = .type ∨ p = .corrected → Opening p ty hs → LocationWord l →
      Opening .location ty (hs ++ [(l, .location ⟨l⟩)])
  | time {ty hs d h m} : Opening .location ty hs → ty ≠ .METAR → d < 100 → h < 100 → m < 100 →
      Opening .time ty (hs ++ [(timeText d h m, .reportTime ⟨⟨some d, h, m⟩⟩)])

/-- The text of a period of time, from day and hour to day and hour. -/
def periodText (d h d' h' : Nat) : Str := (TrendWord.span d h d' h').text

/-- The group of the period of a forecast. -/
def periodGroup (d h d' h' : Nat) : Group := .trend (trendMeaning [.span d h d' h'])

/-- `FullHeader ty hs`: the words `hs` are the complete header of a report of type `ty`. The header of a
METAR, if its type is written, ends with the time of the report, the header of a TAF with the period of the
forecast. -/
inductive FullHeader : ReportType → Words → Prop
  | metar {hs d h m} : Opening .location .METAR hs → d < 100 → h < 100 → m < 100 →
      FullHeader .METAR (hs ++ [(timeText d h m, .reportTime ⟨⟨some d, h, m⟩⟩)])
  | taf {hs d h d' h'} : Opening .location .TAF hs → d < 100 → h < 100 → d' < 100 → h' < 100 →
      FullHeader .TAF (hs ++ [(periodText d h d' h', periodGroup d h d' h')])
  | tafTime {ty hs d h d' h'} : Opening .time ty hs → d < 100 → h < 100 → d' < 100 → h' < 100 →
      FullHeader .TAF (hs ++ [(periodText d h d' h', periodGroup d h d' h')])

/-- The word is a time of a report. -/
def TimeWord (w : Str) : Prop := ∃ d h m, d < 100 ∧ h < 100 ∧ m < 100 ∧ w = timeText d h m

/-- The word is a period of time. -/
def PeriodWord (w : Str) : Prop :=
  ∃ d h d' h', d < 100 ∧ h < 100 ∧ d' < 100 ∧ h' < 100 ∧ w = periodText d h d' h'

/-- `Wrong p ty w e`: in the header of a report of type `ty` the word `w` cannot follow at the place `p`,
and the error is `e`. -/
inductive Wrong : Place → ReportType → Str → ReportError → Prop
  | start {w} : w ∉ [c!"METAR", c!"SPECI", c!"TAF"] → ¬ LocationWord w →
      Wrong .start .UNKNOWN w .EXPECTED_REPORT_TYPE_OR_LOCATION
  | type {ty w} : w ∉ [c!"COR", c!"AMD"] → ¬ LocationWord w → Wrong .type ty w .EXPECTED_LOCATION
  | amd {ty} : ty ≠ .TAF → Wrong .type ty c!"AMD" .AMD_ALLOWED_IN_TAF_ONLY
  | corrected {ty w} : ¬ LocationWord w → Wrong .corrected ty w .EXPECTED_LOCATION
  | location {ty w} : ¬ TimeWord w → w ≠ c!"NIL" → (ty = .TAF → ¬ PeriodWord w) →
      Wrong .location ty w .EXPECTED_REPORT_TIME
  | time {w} : ¬ PeriodWord w → w ≠ c!"NIL" → Wrong .time .TAF w .EXPECTED_TIME_SPAN

/-- The words themselves. -/
def wordsOf (hs : Words) : List Str := hs.map Prod.fst

/-- The entries of the result for the words of a header. -/
def headerEntries (hs : Words) : List GroupInfo := hs.map fun x => ⟨x.2, .HEADER, x.1⟩

/-- The entry of the result for any word in the header. -/
inductive HeaderEntry : Str → GroupInfo → Prop
  | said {w g} : HeaderWord w g → HeaderEntry w ⟨g, .HEADER, w⟩
  | unknown {w} : (∀ g, ¬ HeaderWord w g) → HeaderEntry w ⟨.unknown {}, .HEADER, w⟩

/-! ### After the report has ended -/

/-- The entry of the result for a word after `NIL` or `CNL`. -/
inductive AfterEntry : Str → GroupInfo → Prop
  | said {w k} : IsKeyword .UNKNOWN w k → AfterEntry w ⟨.keyword ⟨k⟩, .UNKNOWN, w⟩
  | unknown {w} : (∀ k, ¬ IsKeyword .UNKNOWN w k) → AfterEntry w ⟨.unknown {}, .UNKNOWN, w⟩

/-- `After err ws n gs e`: after `NIL` or `CNL` nothing may follow; otherwise one more word is read and
the error is `err`. -/
inductive After (err : ReportError) : List Str → Nat → List GroupInfo → ReportError → Prop
  | nothing : After err [] 0 [] .NONE
  | word {w rest x} : AfterEntry w x → After err (w :: rest) 1 [x] err

/-! ### Remarks and body -/

/-- `RemarksMeaning ty now ws n gs e`: of the words `ws` after `RMK` in a report of type `ty` made at the
hour `now`, `n` are read and make up the entries `gs`. In a TAF the maintenance indicator is an error. -/
inductive RemarksMeaning (ty : ReportType) (now : Option Nat) : List Str → Nat → List GroupInfo → ReportError → Prop
  | all {ws items} : (ty = .TAF → c!"$" ∉ ws) → DividedRemarks now ws items →
      RemarksMeaning ty now ws ws.length (entries .RMK items) .NONE
  | maintenance {ws rest items} : ty = .TAF → c!"$" ∉ ws → DividedRemarks now (ws ++ [c!"$"]) items →
      RemarksMeaning ty now (ws ++ c!"$" :: rest) (ws.length + 1) (entries .RMK items)
        .MAINTENANCE_INDICATOR_ALLOWED_IN_METAR_ONLY

/-- `BodyMeaning ty now ws n gs e`: of the words `ws` after the header of a report of type `ty` made at the
hour `now`, `n` are read and make up the entries `gs`; the error is `e`. -/
inductive BodyMeaning (ty : ReportType) (now : Option Nat) : List Str → Nat → List GroupInfo → ReportError → Prop
  /-- The header without any body is no report. -/
  | nothing : BodyMeaning ty now [] 0 [] .UNEXPECTED_REPORT_END
  /-- A missing report. -/
  | nil {ws n gs e} : After .UNEXPECTED_GROUP_AFTER_NIL ws n gs e →
      BodyMeaning ty now (c!"NIL" :: ws) (n + 1) (⟨.keyword ⟨.NIL⟩, bodyPart ty, c!"NIL"⟩ :: gs) e
  /-- A cancelled forecast. -/
  | cnl {ws n gs e} : ty = .TAF → After .UNEXPECTED_GROUP_AFTER_CNL ws n gs e →
      BodyMeaning ty now (c!"CNL" :: ws) (n + 1) (⟨.keyword ⟨.CNL⟩, bodyPart ty, c!"CNL"⟩ :: gs) e
  /-- Only a forecast can be cancelled. -/
  | cnlMetar {ws} : ty ≠ .TAF →
      BodyMeaning ty now (c!"CNL" :: ws) 1 [⟨.keyword ⟨.CNL⟩, bodyPart ty, c!"CNL"⟩] .CNL_ALLOWED_IN_TAF_ONLY
  /-- A body without remarks. -/
  | body {ws items} : ws ≠ [] → (∀ w ∈ ws, w ∉ stops (bodyPart ty)) → Divided (bodyPart ty) ws items →
      BodyMeaning ty now ws ws.length (entries (bodyPart ty) items) .NONE
  /-- `NIL` or `CNL` after other words of the body. -/
  | ended {ws rest items w k} : ws ≠ [] → (∀ w ∈ ws, w ∉ stops (bodyPart ty)) → Divided (bodyPart ty) ws items →
      (w, k) ∈ [(c!"NIL", KeywordType.NIL), (c!"CNL", KeywordType.CNL)] →
      BodyMeaning ty now (ws ++ w :: rest) (ws.length + 1)
        (entries (bodyPart ty) items ++ [⟨.keyword ⟨k⟩, bodyPart ty, w⟩]) .UNEXPECTED_NIL_OR_CNL_IN_REPORT_BODY
  /-- The maintenance indicator in the body of a TAF. -/
  | maintenance {ws rest items} : ty = .TAF → (∀ w ∈ ws, w ∉ stops (bodyPart ty)) →
      Divided (bodyPart ty) ws items →
      BodyMeaning ty now (ws ++ c!"$" :: rest) (ws.length + 1)
        (entries (bodyPart ty) items ++ [⟨.keyword ⟨.MAINTENANCE_INDICATOR⟩, bodyPart ty, c!"$"⟩])
        .MAINTENANCE_INDICATOR_ALLOWED_IN_METAR_ONLY
  /-- A body, possibly empty, and remarks. -/
  | remarks {ws rmk items n gs e} : (∀ w ∈ ws, w ∉ stops (bodyPart ty)) → Divided (bodyPart ty) ws items →
      RemarksMeaning ty now rmk n gs e →
      BodyMeaning ty now (ws ++ c!"RMK" :: rmk) (ws.length + 1 + n)
        (entries (bodyPart ty) items ++ ⟨.keyword ⟨.RMK⟩, bodyPart ty, c!"RMK"⟩ :: gs) e

/-! ### The report -/

/-- `Meaning ws n gs ty e`: the words `ws` mean the entries `gs`, the report is of type `ty` and the error
is `e`. The number of words read is `n`, except that one more is counted if the report is found to be a
METAR only because no period follows the time. -/
inductive Meaning : List Str → Nat → List GroupInfo → ReportType → ReportError → Prop
  /-- No words. -/
  | empty : Meaning [] 0 [] .UNKNOWN .EMPTY_REPORT
  /-- The header is not complete. -/
  | cut {p ty hs} : Opening p ty hs → hs ≠ [] →
      Meaning (wordsOf hs) hs.length (headerEntries hs) ty .UNEXPECTED_REPORT_END
  /-- A word which cannot follow in the header; the other words are ignored. -/
  | wrong {p ty hs w rest x e} : Opening p ty hs → Wrong p ty w e → HeaderEntry w x →
      Meaning (wordsOf hs ++ w :: rest) (hs.length + 1) (headerEntries hs ++ [x]) ty e
  /-- A missing report without time or without period. -/
  | nil {p ty hs ws n gs e} : Opening p ty hs → p = .location ∨ p = .time →
      After .UNEXPECTED_GROUP_AFTER_NIL ws n gs e →
      Meaning (wordsOf hs ++ c!"NIL" :: ws) (hs.length + 1 + n)
        (headerEntries hs ++ ⟨.keyword ⟨.NIL⟩, .HEADER, c!"NIL"⟩ :: gs) ty e
  /-- A complete header and what follows. -/
  | typed {ty hs ws n gs e} : FullHeader ty hs → BodyMeaning ty (headerHour hs) ws n gs e →
      Meaning (wordsOf hs ++ ws) (hs.length + n) (headerEntries hs ++ gs) ty e
  /-- Location and time without type are the header of a METAR if neither a period nor `NIL` follows. -/
  | untyped {hs w ws n gs e} : Opening .time .UNKNOWN hs → ¬ PeriodWord w → w ≠ c!"NIL" →
      BodyMeaning .METAR (headerHour hs) (w :: ws) n gs e →
      Meaning (wordsOf hs ++ w :: ws) (hs.length + 1 + n) (headerEntries hs ++ gs) .METAR e

/-- `Outcome ws limit gs ty e`: with at most `limit` words allowed, the words `ws` give the entries `gs`, the
type `ty` and the error `e`. -/
inductive Outcome (ws : List Str) (limit : Nat) : List GroupInfo → ReportType → ReportError → Prop
  /-- Fewer words are read than the limit. -/
  | within {n gs ty e} : Meaning ws n gs ty e → n < max limit 1 → Outcome ws limit gs ty e
  /-- With the word which reaches the limit reading ends. -/
  | tooLarge {us rest n gs ty e} : ws = us ++ rest → Meaning us n gs ty e → n = max limit 1 →
      Outcome ws limit gs ty .REPORT_TOO_LARGE
  /-- The limit of three is reached by the word after a location and a time, before this word is taken for
  the first one of the body. -/
  | third {hs w rest x} : ws = wordsOf hs ++ w :: rest → Opening .time .UNKNOWN hs → ¬ PeriodWord w →
      w ≠ c!"NIL" → HeaderEntry w x → limit = 3 →
      Outcome ws limit (headerEntries hs ++ [x]) .METAR .REPORT_TOO_LARGE

end Metaf.Spec
