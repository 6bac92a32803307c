import Verif.Model.Tutorial
import Verif.Spec.Printed
import Verif.Proofs.Numerals
import Verif.Proofs.Util
import Verif.Props.Limits

/-!
C113: what the program of the tutorial (`/repo/examples/tutorial.cpp`) prints for any report.
-/

set_option linter.unusedSectionVars false

namespace Metaf.Props

open Metaf Metaf.Spec Metaf.Tutorial

variable [FloatIeee]

/-! ### Lines -/

theorem linesOf_line {a b : Str} (h : '\n' ∉ a) : linesOf (a ++ '\n' :: b) = a :: linesOf b := by
  induction a with
  | nil => rfl
  | cons c a ih =>
    have h1 : c ≠ '\n' := fun e => h (by simp [e])
    have h2 : '\n' ∉ a := fun e => h (by simp [e])
    simp only [List.cons_append, linesOf, if_neg h1, ih h2]

theorem linesOf_lines {ls : List Str} (h : ∀ l ∈ ls, '\n' ∉ l) :
    linesOf (ls.flatMap fun l => l ++ ['\n']) = ls ++ [[]] := by
  induction ls with
  | nil => rfl
  | cons l ls ih =>
    have e : (l :: ls).flatMap (fun l => l ++ ['\n']) = l ++ '\n' :: ls.flatMap (fun l => l ++ ['\n']) := by simp
    rw [e, linesOf_line (h l (by simp)), ih fun l hl => h l (by simp [hl])]
    rfl

/-! ### Texts -/

theorem error_text (e : ReportError) : (e, errorMessage e) ∈ errorTexts := by
  cases e <;> decide

theorem type_text (t : ReportType) : (t, reportTypeMessage t) ∈ typeTexts := by
  cases t <;> decide

theorem line_for (x : GroupInfo) : LineFor x (myVisitor.visitInfo x) := by
  obtain ⟨g, p, s⟩ := x
  cases g
  case runwayState g => exact ⟨_, .runwayState, Or.inr ⟨rfl, g, rfl⟩⟩
  all_goals exact ⟨_, by constructor, Or.inl rfl⟩

/-- The name of a kind of groups has neither a colon nor a line break. -/
theorem named_plain {g : Group} {t : Str} (h : Named g t) : ':' ∉ t ∧ '\n' ∉ t := by
  cases h <;> decide

/-- The text of an entry has no line break. -/
theorem raw_line {report : Str} {limit : Nat} {r : ParseResult} (hr : Result report limit r) :
    ∀ x ∈ r.groups, '\n' ∉ x.rawString := by
  obtain ⟨k, h1, -, h3, -⟩ := C04_no_text_lost report limit _ r (groups_tokens report) hr
  intro x hx hn
  have hb : ∀ ws : List Str, '\n' ∈ unwords ws → ∃ w ∈ ws, '\n' ∈ w := by
    intro ws
    induction ws with
    | nil => intro h; cases h
    | cons w ws ih =>
      intro h
      cases ws with
      | nil => exact ⟨w, by simp, h⟩
      | cons v ws =>
        have e : unwords (w :: v :: ws) = w ++ ' ' :: unwords (v :: ws) := rfl
        rw [e, List.mem_append, List.mem_cons] at h
        rcases h with h | h | h
        · exact ⟨w, by simp, h⟩
        · exact absurd h (by decide)
        · obtain ⟨u, hu, h⟩ := ih h
          exact ⟨u, by simp [hu], h⟩
  rw [← h3 x hx] at hn
  obtain ⟨w, hw, hn⟩ := hb _ hn
  have hm : w ∈ tokens report := by
    have : w ∈ r.groups.flatMap (fun gi => words gi.rawString) := List.mem_flatMap.mpr ⟨x, hx, hw⟩
    rw [h1] at this
    exact List.mem_of_mem_take this
  have := (Parser.tok_of_mem hm).2 _ hn
  revert this
  decide

/-! ### The property -/

/-- C113. Something is printed for every report. -/
theorem C113_total (report : Str) : ∃ out, main report = .ok out := by
  obtain ⟨r, hr, -⟩ := C01_parse_total report 200
  exact ⟨_, by unfold main; rw [show Parser.parse report = .ok r from hr]; rfl⟩

/-- C113. What is printed for a report without line breaks: a line with the report, a line with the error, a
line with the type, a line with the number of groups, then one line for each group of the result, in their
order, with its kind and its text. -/
theorem C113_lines {report out : Str} (h : main report = .ok out) (hn : '\n' ∉ report) :
    ∃ r e t n ls, Result report 200 r ∧ (r.reportMetadata.error, e) ∈ errorTexts ∧
      (r.reportMetadata.type, t) ∈ typeTexts ∧ Explain.Numeral n r.groups.length ∧
      List.Forall₂ LineFor r.groups ls ∧
      linesOf out = [c!"Parsing report: " ++ report, c!"Parse error: " ++ e, c!"Detected report type: " ++ t,
        n ++ c!" groups parsed"] ++ ls ++ [[]] := by
  obtain ⟨r, hr, -⟩ := C01_parse_total report 200
  unfold main at h
  rw [show Parser.parse report = .ok r from hr] at h
  injection h with h
  have hnum := Explain.showNat_numeral r.groups.length
  refine ⟨r, _, _, _, r.groups.map myVisitor.visitInfo, hr, error_text _, type_text _, hnum, ?_, ?_⟩
  · rw [List.forall₂_map_right_iff]
    exact List.forall₂_same.mpr fun x _ => line_for x
  · have n1 : '\n' ∉ c!"Parsing report: " ++ report := by
      rw [List.mem_append]
      rintro (h | h)
      · exact absurd h (by decide)
      · exact hn h
    have n2 : '\n' ∉ c!"Parse error: " ++ errorMessage r.reportMetadata.error := by
      cases r.reportMetadata.error <;> decide
    have n3 : '\n' ∉ c!"Detected report type: " ++ reportTypeMessage r.reportMetadata.type := by
      cases r.reportMetadata.type <;> decide
    have n4 : '\n' ∉ Explain.showNat r.groups.length ++ c!" groups parsed" := by
      rw [List.mem_append]
      rintro (h | h)
      · have := hnum.2.1 _ h
        revert this
        decide
      · exact absurd h (by decide)
    have n5 : ∀ l ∈ r.groups.map myVisitor.visitInfo, '\n' ∉ l := by
      intro l hl
      obtain ⟨x, hx, rfl⟩ := List.mem_map.mp hl
      obtain ⟨t, ht, e⟩ := line_for x
      have h1 := (named_plain ht).2
      have h2 := raw_line hr x hx
      rcases e with e | ⟨e, -⟩ <;> rw [e] <;> simp [h1, h2]
    have key : out = ([c!"Parsing report: " ++ report, c!"Parse error: " ++ errorMessage r.reportMetadata.error,
        c!"Detected report type: " ++ reportTypeMessage r.reportMetadata.type,
        Explain.showNat r.groups.length ++ c!" groups parsed"] ++ r.groups.map myVisitor.visitInfo).flatMap
          fun l => l ++ ['\n'] := by
      rw [← h]
      simp only [List.flatMap_append, List.flatMap_map, List.flatMap_cons, List.flatMap_nil, List.append_assoc]
      rfl
    rw [key, linesOf_lines]
    intro l hl
    simp only [List.mem_append, List.mem_cons, List.not_mem_nil, or_false] at hl
    rcases hl with (rfl | rfl | rfl | rfl) | hl
    · exact n1
    · exact n2
    · exact n3
    · exact n4
    · exact n5 l hl

/-- The part of a line before the colon. -/
def caption (l : Str) : Str := l.takeWhile (· ≠ ':')

/-- The part of a line after the colon. -/
def content (l : Str) : Str := (l.dropWhile (· ≠ ':')).drop 1

theorem caption_of {t s : Str} (h : ':' ∉ t) : caption (t ++ ':' :: s) = t ∧ content (t ++ ':' :: s) = s := by
  induction t with
  | nil => exact ⟨rfl, rfl⟩
  | cons c t ih =>
    have h1 : c ≠ ':' := fun e => h (by simp [e])
    obtain ⟨i1, i2⟩ := ih fun e => h (by simp [e])
    unfold caption content at *
    simp only [List.cons_append, List.takeWhile_cons, List.dropWhile_cons, h1, ne_eq, not_false_eq_true, decide_true,
      if_true]
    exact ⟨congrArg (c :: ·) i1, i2⟩

/-- The line of an entry: the name of its kind before the colon, its words after the colon. -/
theorem lineFor_parts {x : GroupInfo} {l : Str} (h : LineFor x l) :
    Named x.group (caption l) ∧ words (content l) = words x.rawString := by
  obtain ⟨t, ht, h⟩ := h
  rcases h with rfl | ⟨rfl, -⟩
  · have := caption_of (s := ' ' :: x.rawString) (named_plain ht).1
    rw [show t ++ c!": " ++ x.rawString = t ++ ':' :: ' ' :: x.rawString by simp, this.1, this.2]
    exact ⟨ht, rfl⟩
  · have := caption_of (s := x.rawString) (named_plain ht).1
    rw [show t ++ c!":" ++ x.rawString = t ++ ':' :: x.rawString by simp, this.1, this.2]
    exact ⟨ht, rfl⟩

/-- C113. No text of an accepted report is lost: the words after the colons of the lines for the groups are
the words of the report. -/
theorem C113_words {report out : Str} {ws : List Str} (h : main report = .ok out) (hn : '\n' ∉ report)
    (hg : Groups report ws) (he : c!"Parse error: no error, parsed succesfully" ∈ (linesOf out)[1]?) :
    (((linesOf out).drop 4).dropLast.flatMap fun l => words (content l)) = ws := by
  obtain ⟨r, e, t, n, ls, hr, h1, h2, h3, h4, h5⟩ := C113_lines h hn
  rw [h5] at he ⊢
  replace he : r.reportMetadata.error = .NONE := by
    simp only [List.cons_append, List.getElem?_cons_succ, List.getElem?_cons_zero, Option.mem_def,
      Option.some.injEq] at he
    have he : e = c!"no error, parsed succesfully" := List.append_cancel_left (as := c!"Parse error: ") he
    subst he
    revert h1
    cases r.reportMetadata.error <;> decide
  obtain ⟨k, k1, k2, -, -⟩ := C04_no_text_lost report 200 ws r hg hr
  rw [k2 (Or.inl he), List.take_length] at k1
  rw [← k1]
  have e1 : ([c!"Parsing report: " ++ report, c!"Parse error: " ++ e, c!"Detected report type: " ++ t,
      n ++ c!" groups parsed"] ++ ls ++ [[]]).drop 4 = ls ++ [[]] := by simp
  rw [e1, List.dropLast_concat]
  clear k1 k2 h5 h3 e1 he hr h1 h2
  generalize r.groups = gs at h4 ⊢
  induction h4 with
  | nil => rfl
  | cons hx _ ih =>
    simp only [List.flatMap_cons, ih, (lineFor_parts hx).2]

/-- The names of the kinds of groups. -/
def kindNames : List Str := [
  c!"Keyword",
  c!"ICAO location",
  c!"Report Release Time",
  c!"Trend Header",
  c!"Wind",
  c!"Visibility",
  c!"Cloud Data",
  c!"Weather Phenomena",
  c!"Temperature and Dew Point",
  c!"Pressure",
  c!"State of Runway",
  c!"Sea Surface",
  c!"Minimum/Maximum Temperature",
  c!"Precipitation",
  c!"Atmospheric Layer Forecast",
  c!"Pressure Tendency",
  c!"Cloud Types",
  c!"Low, middle, and high cloud layers",
  c!"Lightning data",
  c!"Events in vicinity",
  c!"Miscellaneous Data",
  c!"Not recognised by the parser"]

/-- C113. The printed texts tell errors, types and kinds of groups apart: different errors have different
texts, so have different types, and different kinds of groups have different names. -/
theorem C113_distinct :
    (∀ e e' t, (e, t) ∈ errorTexts → (e', t) ∈ errorTexts → e = e') ∧
    (∀ a b t, (a, t) ∈ typeTexts → (b, t) ∈ typeTexts → a = b) ∧
    ∀ g g' t, Named g t → Named g' t → g.ctorIdx = g'.ctorIdx := by
  refine ⟨?_, ?_, ?_⟩
  · have : ∀ x ∈ errorTexts, ∀ y ∈ errorTexts, x.2 = y.2 → x.1 = y.1 := by decide +kernel
    exact fun e e' t h h' => this _ h _ h' rfl
  · have : ∀ x ∈ typeTexts, ∀ y ∈ typeTexts, x.2 = y.2 → x.1 = y.1 := by decide +kernel
    exact fun e e' t h h' => this _ h _ h' rfl
  · intro g g' t h h'
    have key : ∀ {g t}, Named g t → g.ctorIdx < 22 ∧ kindNames[g.ctorIdx]? = some t := by
      intro g t h
      cases h <;> exact ⟨Nat.le_of_ble_eq_true rfl, rfl⟩
    have inj : ∀ i < 22, ∀ j < 22, kindNames[i]? = kindNames[j]? → i = j := by decide +kernel
    exact inj _ (key h).1 _ (key h').1 ((key h).2.trans (key h').2.symm)

section

attribute [local instance] exactFloat

/-- Example: the report of the tutorial, with the words and lines of C113. -/
example : ∃ out, main c!"KDDC 112052Z AUTO 19023G34KT R24/CLRD70 7SM XYZ RMK AO2 58018" = .ok out ∧
    (linesOf out).drop 1 = [c!"Parse error: no error, parsed succesfully", c!"Detected report type: METAR",
      c!"10 groups parsed", c!"ICAO location: KDDC", c!"Report Release Time: 112052Z", c!"Keyword: AUTO",
      c!"Wind: 19023G34KT", c!"State of Runway:R24/CLRD70", c!"Visibility: 7SM", c!"Not recognised by the parser: XYZ",
      c!"Keyword: RMK", c!"Keyword: AO2", c!"Pressure Tendency: 58018", []] := by
  refine ⟨_, rfl, ?_⟩
  decide +kernel

end

end Metaf.Props
