import Verif.Proofs.Shapes
import Verif.Props.Reparse

/-!
Words that are recognised as groups are not divided further.
-/

set_option linter.unusedSectionVars false

namespace Metaf

namespace Rx

/-- No character of a text of the expression is in the set. -/
def avoids (bad : List (Char × Char)) : Rx → Bool
  | .eps => true
  | .set rs => !overlap rs bad
  | .seq a b => avoids bad a && avoids bad b
  | .alt a b => avoids bad a && avoids bad b
  | .star a => avoids bad a
  | .cap _ a => avoids bad a

theorem avoids_match {bad : List (Char × Char)} {r : Rx} {s : Str} {cs : Caps} (hm : Match r s cs) :
    avoids bad r = true → ∀ c ∈ s, inSet bad c = false := by
  induction hm with
  | eps => intro _ c hc; cases hc
  | @set rs c h =>
    intro ha x hx
    obtain rfl := List.mem_singleton.mp hx
    cases hb : inSet bad x with
    | false => rfl
    | true => simp [avoids, overlap_of h hb] at ha
  | seq _ _ ih1 ih2 =>
    intro ha c hc
    simp only [avoids, Bool.and_eq_true] at ha
    exact (List.mem_append.mp hc).elim (ih1 ha.1 c) (ih2 ha.2 c)
  | altl _ ih => intro ha; simp only [avoids, Bool.and_eq_true] at ha; exact ih ha.1
  | altr _ ih => intro ha; simp only [avoids, Bool.and_eq_true] at ha; exact ih ha.2
  | starNil => intro _ c hc; cases hc
  | starCons _ _ _ ih1 ih2 =>
    intro ha c hc
    exact (List.mem_append.mp hc).elim (ih1 ha c) (ih2 ha c)
  | cap _ ih => intro ha; exact ih ha

end Rx

namespace Props

open Metaf.Spec Metaf.Parser

variable [FloatSem]

/-- A word which is one group of a report. -/
def Single (w : Str) : Prop := tokens w = [w] ∧ ∀ c ∈ w, c ≠ '='

/-- Characters that end a group or the report. -/
def dividers : List (Char × Char) := [(Char.ofNat 0, ' '), (Char.ofNat 128, Char.ofNat 0x10FFFF), ('=', '=')]

theorem divider_iff (c : Char) : Rx.inSet dividers c = false ↔ ¬ Blank c ∧ c ≠ '=' := by
  have h0 : (Char.ofNat 0).toNat = 0 := by decide
  have h1 : (Char.ofNat 128).toNat = 128 := by decide
  have h2 : (Char.ofNat 0x10FFFF).toNat = 0x10FFFF := by decide
  have h3 : ' '.toNat = 32 := by decide
  have h4 : '='.toNat = 61 := by decide
  have h5 : c.toNat ≤ 0x10FFFF := by
    have := c.valid
    rcases this with h | h <;> simp only [Char.toNat, UInt32.toNat] at * <;> omega
  have h6 : c = '=' ↔ c.toNat = 61 := by
    constructor
    · rintro rfl; rfl
    · intro h; exact Char.toNat_inj.mp (by rw [h, h4])
  simp only [Rx.inSet, dividers, List.any_cons, List.any_nil, Bool.or_false, Bool.or_eq_false_iff, Bool.and_eq_false_iff,
    decide_eq_false_iff_not, h0, h1, h2, h3, h4, Blank, h6, ne_eq]
  omega

theorem single_of_pieces {w : Str} (hne : w ≠ []) (hg : ∀ c ∈ w, ¬ Blank c ∧ c ≠ '=')
    (hp : Pieces w [w]) : Single w := by
  refine ⟨tokens_of_groups ⟨[w], [[w]], ?_, .cons hp .nil, by simp⟩, fun c hc => (hg c hc).2⟩
  rw [beforeEnd_all (fun c hc => (hg c hc).2)]
  have := Layout.cons (lead := []) (w := w) (s := []) (ws := []) (by simp) hne
    (fun c hc => (hg c hc).1) (by simp) (.nil (by simp))
  simpa using this

/-- Characters of ordinary words. -/
def Good (c : Char) : Prop := ¬ Blank c ∧ c ≠ '=' ∧ c ≠ '+'

instance (c : Char) : Decidable (Good c) := inferInstanceAs (Decidable (_ ∧ _))

theorem single_of {w : Str} (hne : w ≠ []) (hg : ∀ c ∈ w, Good c) : Single w := by
  refine single_of_pieces hne (fun c hc => ⟨(hg c hc).1, (hg c hc).2.1⟩) ?_
  cases w with
  | nil => exact absurd rfl hne
  | cons c u => exact .last fun h => (hg '+' (by simp [h])).2.2 rfl

theorem digit_good {c : Char} (h : isDigit c = true) : Good c := by
  refine ⟨?_, ?_, ?_⟩
  · have h0 : '0'.toNat = 48 := by decide
    have h9 : '9'.toNat = 57 := by decide
    simp only [isDigit, Bool.and_eq_true, decide_eq_true_eq, h0, h9] at h
    unfold Blank; omega
  · rintro rfl; revert h; decide
  · rintro rfl; revert h; decide

def plainShapes : Bool :=
  [ReportPart.HEADER, .METAR, .TAF].all fun p => (List.range 21).all fun i =>
    Rx.avoids dividers (shape i p) && (i == 7 || i == 20 || Rx.avoids [('+', '+')] (shape i p))

theorem plainShapes_true : plainShapes = true := by decide +kernel

theorem not_plus {s : Str} (h : ∀ c ∈ s, Rx.inSet [('+', '+')] c = false) : '+' ∉ s := by
  intro hm
  have := h _ hm
  revert this
  decide

theorem empty_not_recognised {p : ReportPart} (hp : p = .HEADER ∨ p = .METAR ∨ p = .TAF) {md : ReportMetadata}
    {i : Nat} {g : Group} : recognise i [] p md ≠ .ok (some g) := by
  intro h
  have hi := (recognise_shape h).1
  have he : recognise i [] p md = .ok none := by
    rcases hp with rfl | rfl | rfl <;> interval_cases i <;> rfl
  rw [he] at h
  cases h

theorem pieces_plus {c : Char} {u : Str} (h : '+' ∉ u) : Pieces (c :: u) [c :: u] := .last h

theorem recognised_single {p : ReportPart} (hp : p = .HEADER ∨ p = .METAR ∨ p = .TAF) {md : ReportMetadata}
    {i : Nat} {w : Str} {g : Group} (h : recognise i w p md = .ok (some g)) : Single w := by
  obtain ⟨hi, cs, hm⟩ := recognise_shape h
  have hne : w ≠ [] := by rintro rfl; exact empty_not_recognised hp h
  have hc : (p ∈ [ReportPart.HEADER, .METAR, .TAF]) := by rcases hp with rfl | rfl | rfl <;> simp
  have := List.all_eq_true.mp (List.all_eq_true.mp plainShapes_true p hc) i (List.mem_range.mpr hi)
  simp only [Bool.and_eq_true, Bool.or_eq_true, beq_iff_eq] at this
  obtain ⟨h1, h2⟩ := this
  refine single_of_pieces hne (fun c hc => (divider_iff c).mp (Rx.avoids_match hm h1 c hc)) ?_
  have plain : '+' ∉ w → Pieces w [w] := by
    intro hw
    cases w with
    | nil => exact absurd rfl hne
    | cons c u => exact .last fun h => hw (by simp [h])
  rcases h2 with (rfl | rfl) | h2
  · have hx : Rx.Lang (.lits [c!"NSW", c!"//", c!"RE//"] ∥ Rx'.weather) w := by
      rcases hp with rfl | rfl | rfl
      · obtain ⟨c, hm⟩ : Rx.Lang (.set []) w := ⟨cs, hm⟩
        cases hm; rename_i h; cases h
      · exact ⟨cs, hm⟩
      · exact ⟨cs, hm⟩
    rcases Rx.lang_alt.mp hx with hx | hx
    · have := (Rx.lang_lits _).mp hx
      apply plain
      simp only [List.mem_cons, List.not_mem_nil, or_false] at this
      rcases this with rfl | rfl | rfl <;> decide
    · obtain ⟨u, v, hu, ⟨c, hv⟩, rfl⟩ := Rx.lang_seq.mp hx
      have hv' : '+' ∉ v := not_plus (Rx.avoids_match hv (by decide +kernel))
      have hu' := (Rx.lang_lits _).mp hu
      simp only [List.mem_cons, List.not_mem_nil, or_false] at hu'
      rcases hu' with rfl | rfl | rfl | rfl | rfl
      · exact plain (by simpa using hv')
      · exact .last hv'
      · exact .last hv'
      · exact plain (by simp [hv'])
      · exact plain (by simp [hv'])
  · have hx : Rx.Lang (Rx'.colours ∥ MiscGroup.correctionRgx) w ∨ Rx.Lang MiscGroup.issuerRgx w := by
      rcases hp with rfl | rfl | rfl
      · obtain ⟨c, hm⟩ : Rx.Lang (.set []) w := ⟨cs, hm⟩
        cases hm; rename_i h; cases h
      · exact Or.inl ⟨cs, hm⟩
      · exact Or.inr ⟨cs, hm⟩
    rcases hx with hx | ⟨c, hx⟩
    · rcases Rx.lang_alt.mp hx with hx | ⟨c, hx⟩
      · have hl := (Rx.lang_lits _).mp hx
        by_cases hw : '+' ∈ w
        · have : ∀ w ∈ [c!"BLU+", c!"BLU", c!"WHT", c!"GRN", c!"YLO", c!"YLO1", c!"YLO2", c!"AMB", c!"RED",
              c!"BLACKBLU+", c!"BLACKBLU", c!"BLACKWHT", c!"BLACKGRN", c!"BLACKYLO", c!"BLACKYLO1",
              c!"BLACKYLO2", c!"BLACKAMB", c!"BLACKRED"], '+' ∈ w → w = c!"BLU+" ∨ w = c!"BLACKBLU+" := by
            decide
          have := this w hl hw
          rcases this with rfl | rfl
          · exact .cut (u := c!"LU") (w := []) (by decide) .nil
          · exact .cut (u := c!"LACKBLU") (w := []) (by decide) .nil
        · exact plain hw
      · exact plain (not_plus (Rx.avoids_match hx (by decide +kernel)))
    · exact plain (not_plus (Rx.avoids_match hx (by decide +kernel)))
  · exact plain (not_plus (Rx.avoids_match hm h2))

/-- Single words joined by blanks are the groups of the text. -/
theorem groups_unwords {ws : List Str} (h : ∀ w ∈ ws, Single w) : Groups (unwords ws) ws := by
  have hg := groups_tokens (unwords ws)
  rw [tokens_unwords ws fun w hw => (h w hw).2] at hg
  have : ws.flatMap tokens = ws := by
    clear hg
    induction ws with
    | nil => rfl
    | cons w ws ih =>
      rw [List.flatMap_cons, (h w (by simp)).1, ih fun x hx => h x (by simp [hx])]
      rfl
  rwa [this] at hg

end Props

end Metaf
