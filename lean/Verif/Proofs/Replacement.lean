import Verif.Proofs.Insertion

/-!
Lemmas on groups of a report replaced by other groups.
-/

set_option linter.unusedSectionVars false

namespace Metaf.Props

open Metaf Metaf.Spec

variable [FloatIeee]

/-! ### Divisions put together and taken apart -/

/-- The next word does not continue the last of the items. -/
def NotContinued (p : ReportPart) (items : List (Group × List Str)) (rest : List Str) : Prop :=
  ∀ it, items.getLast? = some it → (∃ g, Written p it.2 g) → ∀ w, rest.head? = some w →
    ∀ g', ¬ Written p (it.2 ++ [w]) g'

theorem apart_tail {p : ReportPart} {it : Group × List Str} {items : List (Group × List Str)} {rest : List Str}
    (h : NotContinued p (it :: items) rest) : NotContinued p items rest := by
  intro x hx
  refine h x ?_
  cases items with
  | nil => cases hx
  | cons y items => rw [List.getLast?_cons_cons]; exact hx

theorem divided_nil {p : ReportPart} (hp : isBody p) {items : List (Group × List Str)} (h : Divided p [] items) :
    items = [] := by
  cases items with
  | nil => rfl
  | cons it items =>
    have := divided_ne hp h it (List.mem_cons_self ..)
    have hw := divided_words h
    rw [List.flatMap_cons] at hw
    exact absurd (List.append_eq_nil_iff.mp hw.symm).1 this

theorem divided_append {p : ReportPart} (hp : isBody p) {ws rest : List Str} {items ir : List (Group × List Str)}
    (h : Divided p ws items) (hr : Divided p rest ir) (ha : NotContinued p items rest) :
    Divided p (ws ++ rest) (items ++ ir) := by
  have next : ∀ {ws us : List Str} {g0 g : Group} {items : List (Group × List Str)}, Divided p us items →
      Written p ws g → (∀ w, us.head? = some w → ∀ g', ¬ Written p (ws ++ [w]) g') →
      NotContinued p ((g0, ws) :: items) rest → ∀ w, (us ++ rest).head? = some w → ∀ g', ¬ Written p (ws ++ [w]) g' := by
    intro ws us g0 g items hd hw h1 h2 w hh
    cases us with
    | nil =>
      obtain rfl := divided_nil hp hd
      exact h2 _ rfl ⟨g, hw⟩ w hh
    | cons a us => exact h1 w hh
  induction h with
  | nil => exact hr
  | group h1 h2 h3 h4 ih =>
    rw [List.append_assoc, List.cons_append]
    exact .group h1 h2 (next h4 h1 h3 ha) (ih (apart_tail ha))
  | broken h1 h2 h3 h4 ih =>
    rw [List.append_assoc, List.cons_append]
    exact .broken h1 h2 (next h4 h1 h3 ha) (ih (apart_tail ha))
  | unknown h1 h2 ih => exact .unknown h1 (ih (apart_tail ha))

theorem divided_split {p : ReportPart} {ws : List Str} {items ia ib : List (Group × List Str)} (h : Divided p ws items)
    (e : items = ia ++ ib) :
    Divided p (ia.flatMap (·.2)) ia ∧ Divided p (ib.flatMap (·.2)) ib := by
  have head : ∀ {P : Str → Prop} {us : List Str} {ia ib : List (Group × List Str)}, Divided p us (ia ++ ib) →
      (∀ w, us.head? = some w → P w) → ∀ w, (ia.flatMap (·.2)).head? = some w → P w := by
    intro P us ia ib hd h w hw
    refine h w ?_
    rw [divided_words hd, List.flatMap_append]
    cases hc : ia.flatMap (·.2) with
    | nil => rw [hc] at hw; cases hw
    | cons a l => rw [hc] at hw; exact hw
  induction h generalizing ia with
  | nil =>
    obtain ⟨rfl, rfl⟩ := List.append_eq_nil_iff.mp e.symm
    exact ⟨.nil, .nil⟩
  | group h1 h2 h3 h4 ih =>
    cases ia with
    | nil =>
      rw [List.nil_append] at e
      subst e
      have := Divided.group h1 h2 h3 h4
      rw [divided_words this] at this
      exact ⟨.nil, this⟩
    | cons it ia =>
      rw [List.cons_append] at e
      injection e with e1 e2
      subst e1 e2
      obtain ⟨i1, i2⟩ := ih rfl
      exact ⟨.group h1 h2 (head (P := fun w => ∀ g', ¬ Written p (_ ++ [w]) g') h4 h3) i1, i2⟩
  | broken h1 h2 h3 h4 ih =>
    cases ia with
    | nil =>
      rw [List.nil_append] at e
      subst e
      have := Divided.broken h1 h2 h3 h4
      rw [divided_words this] at this
      exact ⟨.nil, this⟩
    | cons it ia =>
      rw [List.cons_append] at e
      injection e with e1 e2
      subst e1 e2
      obtain ⟨i1, i2⟩ := ih rfl
      exact ⟨.broken h1 h2 (head (P := fun w => ∀ g', ¬ Written p (_ ++ [w]) g') h4 h3) i1, i2⟩
  | unknown h1 h2 ih =>
    cases ia with
    | nil =>
      rw [List.nil_append] at e
      subst e
      have := Divided.unknown h1 h2
      rw [divided_words this] at this
      exact ⟨.nil, this⟩
    | cons it ia =>
      rw [List.cons_append] at e
      injection e with e1 e2
      subst e1 e2
      obtain ⟨i1, i2⟩ := ih rfl
      exact ⟨.unknown h1 i1, i2⟩

/-! ### The entries -/

/-- A place between two entries of which the second is not unknown is a place between two items. -/
theorem entries_split_right {p : ReportPart} {items : List (Group × List Str)} {ga gb : List GroupInfo}
    (he : entries p items = ga ++ gb) (h : BeginsKnown gb) :
    ∃ ia ib, items = ia ++ ib ∧ entries p ia = ga ∧ entries p ib = gb := by
  induction items generalizing ga with
  | nil =>
    obtain ⟨rfl, rfl⟩ := List.append_eq_nil_iff.mp he.symm
    exact ⟨[], [], rfl, rfl, rfl⟩
  | cons it items ih =>
    cases ga with
    | nil => exact ⟨[], _, rfl, rfl, he⟩
    | cons x ga =>
      obtain ⟨g, ws⟩ := it
      rcases entries_cons p g ws items with ⟨u, v, raw, q, later, rfl, h2, h3⟩ | ⟨h1, h3⟩
      · rw [h3, List.cons_append] at he
        injection he with e1 e2
        obtain ⟨ia, ib, rfl, i1, i2⟩ := ih (ga := ⟨.unknown v, q, raw⟩ :: ga) (by rw [h2, e2]; rfl)
        refine ⟨(.unknown u, ws) :: ia, ib, rfl, ?_, i2⟩
        rw [entries_def, i1, ← e1]
      · rw [h3, List.cons_append] at he
        injection he with e1 e2
        obtain ⟨ia, ib, rfl, i1, i2⟩ := ih e2
        refine ⟨(g, ws) :: ia, ib, rfl, ?_, i2⟩
        rw [entries_known_first, i1, e1]
        by_cases hu : ∃ u, g = .unknown u
        · obtain ⟨u, rfl⟩ := hu
          right
          rw [i1]
          have hb := h1 rfl
          rw [e2] at hb
          cases ga with
          | nil => intro y hy; cases hy
          | cons z ga => exact fun y hy => hb y hy
        · exact Or.inl fun u hu' => hu ⟨u, hu'⟩

/-- The entries of items of which the second part does not begin with an unknown word. -/
theorem entries_append_right {p : ReportPart} {a b : List (Group × List Str)} (h : BeginsKnown (entries p b)) :
    entries p (a ++ b) = entries p a ++ entries p b := by
  induction a with
  | nil => rfl
  | cons it a ih =>
    obtain ⟨g, ws⟩ := it
    rw [List.cons_append]
    rcases entries_cons p g ws a with ⟨u, v, raw, q, later, rfl, h2, h3⟩ | ⟨h1, h3⟩
    · rw [h2] at ih
      rw [h3, entries_def, ih]
      rfl
    · rw [h3, entries_known_first, ih]
      · rfl
      · by_cases hu : ∃ u, g = .unknown u
        · obtain ⟨u, rfl⟩ := hu
          right
          rw [ih]
          have hb := h1 rfl
          cases he : entries p a with
          | nil => exact h
          | cons x l =>
            rw [he] at hb
            intro y hy
            exact hb y (by simpa using hy)
        · exact Or.inl fun u hu' => hu ⟨u, hu'⟩

/-- Between these entries no two unknown ones come together. -/
def KeptApart (ga gb : List GroupInfo) : Prop := EndsKnown ga ∨ BeginsKnown gb

theorem separate_split {p : ReportPart} {items : List (Group × List Str)} {ga gb : List GroupInfo}
    (he : entries p items = ga ++ gb) (h : KeptApart ga gb) :
    ∃ ia ib, items = ia ++ ib ∧ entries p ia = ga ∧ entries p ib = gb :=
  h.elim (entries_split he) (entries_split_right he)

theorem separate_append {p : ReportPart} {a b : List (Group × List Str)} (h : KeptApart (entries p a) (entries p b)) :
    entries p (a ++ b) = entries p a ++ entries p b :=
  h.elim entries_append entries_append_right

theorem begins_append {ga gb : List GroupInfo} (h1 : BeginsKnown gb) (h2 : BeginsKnown ga) : BeginsKnown (ga ++ gb) := by
  cases ga with
  | nil => exact h1
  | cons x ga => exact fun y hy => h2 y hy

/-! ### The body -/

/-- What follows the header, with some groups replaced by others. -/
theorem body_replace {ty : ReportType} {now : Option Nat} {ws wb v : List Str} {n : Nat} {ga gm gb : List GroupInfo}
    {iv : List (Group × List Str)} {x : GroupInfo}
    (h : BodyMeaning ty now ws n (ga ++ (gm ++ gb)) .NONE) (hn : hasWord .NIL (ga ++ (gm ++ gb)) = false)
    (hc : hasWord .CNL (ga ++ (gm ++ gb)) = false) (ht : ∀ w ∈ ws, Parser.Tok w)
    (hw : ws = ga.flatMap (fun x => words x.rawString) ++ (gm.flatMap (fun x => words x.rawString) ++ wb))
    (hx : ga.getLast? = some x) (hk : Known x)
    (hr : ∀ x ∈ ga ++ gm, x.group ≠ .keyword ⟨.RMK⟩) (hm : KeptApart gm gb)
    (hd : Divided (bodyPart ty) v iv) (hv : KeptApart (entries (bodyPart ty) iv) gb)
    (hs : ∀ w ∈ v, w ∉ stops (bodyPart ty))
    (hfirst : ∀ w, (v ++ wb).head? = some w → ∀ g', ¬ Written (bodyPart ty) (words x.rawString ++ [w]) g')
    (hlast : NotContinued (bodyPart ty) iv wb) :
    ∃ n', n' ≤ (ga.flatMap (fun x => words x.rawString) ++ (v ++ wb)).length ∧
      BodyMeaning ty now (ga.flatMap (fun x => words x.rawString) ++ (v ++ wb)) n'
        (ga ++ (entries (bodyPart ty) iv ++ gb)) .NONE := by
  have hp : isBody (bodyPart ty) := by
    cases ty
    · exact Or.inl rfl
    · exact Or.inl rfl
    · exact Or.inr rfl
  have hga : EndsKnown ga := by
    intro y hy
    rw [hx] at hy
    cases hy
    exact hk
  have main : ∀ {us rest : List Str} {items : List (Group × List Str)} {gb' : List GroupInfo},
      us ++ rest = ga.flatMap (fun x => words x.rawString) ++ (gm.flatMap (fun x => words x.rawString) ++ wb) →
      (∀ w ∈ us, Parser.Tok w) → entries (bodyPart ty) items = ga ++ (gm ++ gb') → KeptApart gm gb' →
      KeptApart (entries (bodyPart ty) iv) gb' → Divided (bodyPart ty) us items →
      (∀ w ∈ us, w ∉ stops (bodyPart ty)) →
      ∃ us' items', us' ++ rest = ga.flatMap (fun x => words x.rawString) ++ (v ++ wb) ∧ us' ≠ [] ∧
        Divided (bodyPart ty) us' items' ∧
        entries (bodyPart ty) items' = ga ++ (entries (bodyPart ty) iv ++ gb') ∧
        ∀ w ∈ us', w ∉ stops (bodyPart ty) := by
    intro us rest items gb' e ht he hm hv hdu hst
    obtain ⟨ia, it, rfl, e1, e2⟩ := entries_split he hga
    obtain ⟨im, ib, rfl, e3, e4⟩ := separate_split e2 hm
    have eu := divided_words hdu
    obtain ⟨hda, hdt⟩ := divided_split hdu rfl
    obtain ⟨-, hdb⟩ := divided_split hdt rfl
    have htok : ∀ it ∈ ia ++ (im ++ ib), ∀ w ∈ it.2, Parser.Tok w := by
      intro it hi w hw
      refine ht w ?_
      rw [eu]
      exact List.mem_flatMap.mpr ⟨it, hi, hw⟩
    have ew := entries_words (p := bodyPart ty) fun it hi => htok it (List.mem_append_left _ hi)
    have ew' := entries_words (p := bodyPart ty) fun it hi =>
      htok it (List.mem_append_right _ (List.mem_append_left _ hi))
    rw [e1] at ew
    rw [e3] at ew'
    rw [List.flatMap_append, List.flatMap_append] at eu
    rw [eu, ew, ew', List.append_assoc, List.append_assoc] at e
    have eb := List.append_cancel_left (List.append_cancel_left e)
    have hne : ga.flatMap (fun x => words x.rawString) ≠ [] := by
      rw [ew]
      intro h
      cases hia : ia with
      | nil =>
        rw [hia] at e1
        rw [← e1] at hx
        cases hx
      | cons it l =>
        have := divided_ne hp hda it (by rw [hia]; exact List.mem_cons_self ..)
        rw [hia, List.flatMap_cons] at h
        exact this (List.append_eq_nil_iff.mp h).1
    have hlast' : NotContinued (bodyPart ty) iv (ib.flatMap (·.2)) := by
      intro it hi hg w hw
      refine hlast it hi hg w ?_
      rw [← eb]
      cases hib : ib.flatMap (·.2) with
      | nil => rw [hib] at hw; cases hw
      | cons a l => rw [hib] at hw; exact hw
    have hdv := divided_append hp hd hdb hlast'
    have hfirst' : NotContinued (bodyPart ty) ia (v ++ ib.flatMap (·.2)) := by
      intro it hi hg w hw
      obtain ⟨ia', hia⟩ := List.getLast?_eq_some_iff.mp hi
      have hl : ga.getLast? = some ⟨it.1, bodyPart ty, unwords it.2⟩ := by
        obtain ⟨g', wl⟩ := it
        rw [hia] at e1
        rw [← e1] at hga ⊢
        exact entries_last hga
      rw [hx] at hl
      injection hl with hl
      have := hfirst w (by
        rw [← eb]
        cases v with
        | nil =>
          cases hib : ib.flatMap (·.2) with
          | nil => rw [hib] at hw; cases hw
          | cons a l => rw [hib] at hw; exact hw
        | cons a l => exact hw)
      rw [hl] at this
      rwa [words_unwords (htok it (by rw [hia]; simp))] at this
    have hdd := divided_append hp hda hdv hfirst'
    refine ⟨_, _, ?_, ?_, hdd, ?_, ?_⟩
    · rw [ew, List.append_assoc, List.append_assoc, eb]
    · rw [← ew]
      simp [hne]
    · have h1 : KeptApart (entries (bodyPart ty) iv) (entries (bodyPart ty) ib) := by rw [e4]; exact hv
      have h2 : EndsKnown (entries (bodyPart ty) ia) := by rw [e1]; exact hga
      rw [entries_append h2, separate_append h1, e1, e4]
    · intro w hw
      rcases List.mem_append.mp hw with hw | hw
      · exact hst w (by rw [eu]; exact List.mem_append_left _ hw)
      · rcases List.mem_append.mp hw with hw | hw
        · exact hs w hw
        · exact hst w (by rw [eu]; exact List.mem_append_right _ (List.mem_append_right _ hw))
  generalize hx' : ReportError.NONE = e at h
  generalize hy : ga ++ (gm ++ gb) = gs at h
  cases h with
  | nothing => cases hx'
  | nil => rw [hy] at hn; simp [hasWord] at hn
  | cnl => rw [hy] at hc; simp [hasWord] at hc
  | cnlMetar => cases hx'
  | body h1 h2 h3 =>
    obtain ⟨us, items, a, b, d, e, f⟩ := main (rest := []) (by rw [List.append_nil]; exact hw) ht hy.symm hm hv h3 h2
    rw [List.append_nil] at a
    rw [← a, ← e]
    exact ⟨_, Nat.le_refl _, .body b f d⟩
  | ended => cases hx'
  | maintenance => cases hx'
  | @remarks us rmk items m gs _ h1 h2 h3 =>
    subst hx'
    have hlen : m ≤ rmk.length := by
      cases h3 <;> simp
    rw [← List.append_assoc] at hy
    have begins : ∀ {c d : List GroupInfo} {y : GroupInfo}, gb = c ++ y :: d → BeginsKnown gb → BeginsKnown c := by
      intro c d y e hb z hz
      refine hb z ?_
      rw [e]
      cases c with
      | nil => cases hz
      | cons a c => exact hz
    rcases List.append_eq_append_iff.mp hy with ⟨c, hc1, hc2⟩ | ⟨c, hc1, hc2⟩
    · obtain ⟨us', items', a, b, d, f, i⟩ := main (rest := c!"RMK" :: rmk) (gb' := c) hw
        (fun w hw => ht w (List.mem_append_left _ hw)) (by rw [hc1, List.append_assoc])
        (hm.imp_right (begins hc2)) (hv.imp_right (begins hc2)) h2 h1
      have := BodyMeaning.remarks i d h3
      rw [a, f] at this
      rw [hc2]
      refine ⟨us'.length + 1 + m, ?_, ?_⟩
      · rw [← a]
        simp only [List.length_append, List.length_cons]
        omega
      · rw [List.append_assoc, List.append_assoc] at this
        exact this
    · cases c with
      | nil =>
        rw [List.append_nil] at hc1
        rw [List.nil_append] at hc2
        obtain ⟨us', items', a, b, d, f, i⟩ := main (rest := c!"RMK" :: rmk) (gb' := []) hw
          (fun w hw => ht w (List.mem_append_left _ hw)) (by rw [List.append_nil, hc1])
          (Or.inr fun x hx => by cases hx) (Or.inr fun x hx => by cases hx) h2 h1
        have := BodyMeaning.remarks i d h3
        rw [a, f] at this
        rw [← hc2]
        refine ⟨us'.length + 1 + m, ?_, ?_⟩
        · rw [← a]
          simp only [List.length_append, List.length_cons]
          omega
        · rw [List.append_nil, List.append_assoc] at this
          exact this
      | cons y c =>
        rw [List.cons_append] at hc2
        injection hc2 with hc2 _
        exact absurd (by rw [← hc2]) (hr y (by rw [hc1]; simp))

end Metaf.Props
