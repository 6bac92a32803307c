import Verif.Props.Performance

/-!
C118, C119 and C121: what the performance check lists and measures for a file with any number of groups and reports.
-/

namespace Metaf.Props

open Metaf Metaf.Spec Metaf.Performance

/-- How many of the lines of a file written by the program it reads again: all if there are fewer than 1000, else the
full thousands. -/
def readAgain (n : Nat) : Nat := if n < 1000 then n else n / 1000 * 1000

theorem again_file (file : Str) (ls : List Str) : again (some file) ls = ls.take (readAgain ls.length) := by
  rw [again, if_pos nofun, inFullBatches, readAgain]
  split
  · rw [List.take_length]
  · rw [Nat.mul_comm]

theorem errorLines_bad (rs : List (ParseResult × Str)) :
    errorLines rs = (rs.filter fun r => r.1.reportMetadata.error ≠ .NONE).flatMap fun r =>
      [errorName r.1.reportMetadata.error, r.2] := by
  induction rs with
  | nil => rfl
  | cons r rs ih =>
    have : errorLines (r :: rs) = errorLines [r] ++ errorLines rs := by simp [errorLines]
    rw [this, ih, List.filter_cons]
    by_cases h : r.1.reportMetadata.error = .NONE
    · simp [errorLines, h]
    · simp [errorLines, h]

theorem take_pairs {α β : Type} (f g : α → β) (l : List α) (k : Nat) :
    (l.flatMap fun a => [f a, g a]).take (2 * k) = (l.take k).flatMap fun a => [f a, g a] := by
  induction l generalizing k with
  | nil => simp
  | cons a l ih =>
    cases k with
    | zero => rfl
    | succ k =>
      rw [show 2 * (k + 1) = 2 * k + 1 + 1 from by omega, List.flatMap_cons]
      show f a :: g a :: (l.flatMap fun a => [f a, g a]).take (2 * k) = _
      rw [ih]
      rfl

/-- C119. What is listed for a file with 500 reports with errors or more: their number is told right, but only the
first of them are listed, so many as are full five hundreds. -/
theorem C119_exact {file : Str} {rs : List (ParseResult × Str)}
    (hs : 500 ≤ (rs.filter fun r => r.1.reportMetadata.error ≠ .NONE).length) :
    errorText (some file) rs = c!"Reports not recognised by the parser:\n" ++
      (c!"Reports with errors: " ++ num (rs.filter fun r => r.1.reportMetadata.error ≠ .NONE).length ++ c!"\n" ++
        ((rs.filter fun r => r.1.reportMetadata.error ≠ .NONE).take
          ((rs.filter fun r => r.1.reportMetadata.error ≠ .NONE).length / 500 * 500)).flatMap fun r =>
            errorName r.1.reportMetadata.error ++ c!"\n" ++ r.2 ++ c!"\n") ++ c!"\n" := by
  simp only [errorText]
  rw [if_neg (by intro h; rw [h] at hs; simp at hs), again_file, errorLines_length, readAgain, errorLines_bad]
  generalize (rs.filter fun r => r.1.reportMetadata.error ≠ .NONE) = bad at *
  rw [if_neg (by omega), show 2 * bad.length / 1000 * 1000 = 2 * (bad.length / 500 * 500) by omega, take_pairs]
  generalize bad.take (bad.length / 500 * 500) = l
  have : fileOf (l.flatMap fun r => [errorName r.1.reportMetadata.error, r.2]) =
      l.flatMap fun r => errorName r.1.reportMetadata.error ++ c!"\n" ++ r.2 ++ c!"\n" := by
    induction l with
    | nil => rfl
    | cons r l ih =>
      rw [List.flatMap_cons, fileOf, List.flatMap_append, ← fileOf, ← fileOf, ih]
      simp [fileOf]
  rw [this]

/-- The groups of a kind in a part of the reports which are read again. -/
def keptOf (kind : Str) (part : ReportPart) (gs : List GroupInfo) : List GroupInfo :=
  let l := gs.filter fun x => kindOf x.group = kind ∧ x.reportPart = part
  l.take (readAgain l.length)

theorem again_textsOf (file kind : Str) (part : ReportPart) (gs : List GroupInfo) :
    again (some file) (textsOf kind part gs) = (keptOf kind part gs).map GroupInfo.rawString := by
  rw [again_file, textsOf, List.length_map, ← List.map_take]
  rfl

/-- C118. What is listed for a file with any number of groups not recognised: of each part of the reports, if there are
1000 or more, only the full thousands are counted. -/
theorem C118_exact {file : Str} {gs : List GroupInfo} {lines : List (Nat × Str)}
    (ht : Tally (unknownTexts (some file) gs) lines) (n : Nat) (s : Str) :
    (n, s) ∈ lines ↔ n ≠ 0 ∧
      n = (partsOf.map fun p => ((keptOf c!"UnknownGroup" p.1 gs).filter fun x => x.rawString = s).length).sum := by
  have e : (unknownTexts (some file) gs).count s =
      (partsOf.map fun p => ((keptOf c!"UnknownGroup" p.1 gs).filter fun x => x.rawString = s).length).sum := by
    unfold unknownTexts
    rw [List.count_flatMap]
    congr 1
    refine List.map_congr_left fun p _ => ?_
    show List.count s (again (some file) (textsOf c!"UnknownGroup" p.1 gs)) = _
    rw [again_textsOf, List.count_eq_countP, List.countP_map, List.countP_eq_length_filter]
    congr 2
    funext x
    exact Bool.eq_iff_iff.mpr (by simp)
  rw [ht.counted, ← List.count_pos_iff, e]
  constructor
  · rintro ⟨h1, rfl⟩
    exact ⟨by omega, rfl⟩
  · rintro ⟨h1, rfl⟩
    exact ⟨by omega, rfl⟩

/-- C121. How many groups of a kind are measured for a file with any number of them: of each part of the reports, if
there are 1000 or more, only the full thousands. -/
theorem C121_exact (file kind : Str) (gs : List GroupInfo) :
    testedNumber (some file) gs kind =
      (partsOf.map fun p => ((keptOf kind p.1 gs).filter fun x => x.rawString ≠ []).length).sum := by
  rw [testedNumber]
  congr 1
  refine List.map_congr_left fun p _ => ?_
  rw [again_textsOf, ← List.countP_eq_length_filter, List.countP_map, List.countP_eq_length_filter]
  rfl

/-- Of 1234 reports with errors 1000 are listed, of 499 all. -/
example : readAgain (2 * 1234) = 2 * 1000 ∧ readAgain (2 * 499) = 2 * 499 := by decide

/-- A report with an error. -/
def faultyReport : ParseResult × Str :=
  ({ reportMetadata := { error := .EMPTY_REPORT }, groups := [] }, c!"X")

set_option maxRecDepth 8000 in
/-- With 601 reports with errors, 500 are listed. -/
example : errorText (some c!"x.txt") (List.replicate 601 faultyReport) =
    c!"Reports not recognised by the parser:\n" ++ (c!"Reports with errors: 601\n" ++
      (List.replicate 500 faultyReport).flatMap fun r => errorName r.1.reportMetadata.error ++ c!"\n" ++ r.2 ++ c!"\n") ++
      c!"\n" := by
  have e : (List.replicate 601 faultyReport).filter (fun r => r.1.reportMetadata.error ≠ .NONE) =
      List.replicate 601 faultyReport := by
    rw [List.filter_eq_self]
    intro a ha
    rw [List.eq_of_mem_replicate ha]
    rfl
  rw [C119_exact (by rw [e, List.length_replicate]; omega), e, List.length_replicate, List.take_replicate]
  rfl

end Metaf.Props
