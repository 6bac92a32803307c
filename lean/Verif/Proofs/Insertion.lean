import Verif.Props.WithRemarks

/-!
Lemmas on words inserted between two groups of a report.
-/

set_option linter.unusedSectionVars false

namespace Metaf.Props

open Metaf Metaf.Spec

variable [FloatIeee]

/-- The entry is not unknown. -/
def Known (x : GroupInfo) : Prop := ∀ u, x.group ≠ .unknown u

/-- The last entry is not unknown. -/
def EndsKnown (gs : List GroupInfo) : Prop := ∀ x, gs.getLast? = some x → Known x

/-- The first entry is not unknown. -/
def BeginsKnown (gs : List GroupInfo) : Prop := ∀ x, gs.head? = some x → Known x

theorem endsKnown_tail {a : GroupInfo} {gs : List GroupInfo} (h : EndsKnown (a :: gs)) : EndsKnown gs := by
  intro x hx
  refine h x ?_
  cases gs with
  | nil => cases hx
  | cons b gs => rw [List.getLast?_cons_cons]; exact hx

theorem entries_def (p : ReportPart) (g : Group) (ws : List Str) (items : List (Group × List Str)) :
    entries p ((g, ws) :: items) =
      match g, entries p items with
      | .unknown u, ⟨.unknown _, _, raw⟩ :: later => ⟨.unknown u, p, unwords ws ++ ' ' :: raw⟩ :: later
      | g, later => ⟨g, p, unwords ws⟩ :: later := rfl

/-- The entries of one more item. -/
theorem entries_cons (p : ReportPart) (g : Group) (ws : List Str) (items : List (Group × List Str)) :
    (∃ u v raw q later, g = .unknown u ∧ entries p items = ⟨.unknown v, q, raw⟩ :: later ∧
      entries p ((g, ws) :: items) = ⟨.unknown u, p, unwords ws ++ ' ' :: raw⟩ :: later) ∨
    ((g = .unknown {} → BeginsKnown (entries p items)) ∧
      entries p ((g, ws) :: items) = ⟨g, p, unwords ws⟩ :: entries p items) := by
  by_cases hg : ∃ u, g = .unknown u
  · obtain ⟨u, rfl⟩ := hg
    cases he : entries p items with
    | nil =>
      right
      refine ⟨fun _ x hx => (by cases hx), ?_⟩
      rw [entries_def, he]
    | cons x later =>
      obtain ⟨g', q, raw⟩ := x
      by_cases hg' : ∃ v, g' = .unknown v
      · obtain ⟨v, rfl⟩ := hg'
        left
        refine ⟨u, v, raw, q, later, rfl, rfl, ?_⟩
        rw [entries_def, he]
      · right
        refine ⟨fun _ x hx => ?_, ?_⟩
        · cases hx
          exact fun v hv => hg' ⟨v, hv⟩
        · rw [entries_def, he]
          split
          · rename_i h _ _ _ _ _ h2
            injection h2 with h2 _
            injection h2 with h2 _ _
            exact absurd ⟨_, h2⟩ hg'
          · rfl
  · right
    refine ⟨fun h => absurd ⟨_, h⟩ hg, ?_⟩
    rw [entries_def]
    split
    · exact absurd ⟨_, rfl⟩ hg
    · rfl

theorem entries_known_first {p : ReportPart} {g : Group} {ws : List Str} {items : List (Group × List Str)}
    (h : (∀ u, g ≠ .unknown u) ∨ BeginsKnown (entries p items)) :
    entries p ((g, ws) :: items) = ⟨g, p, unwords ws⟩ :: entries p items := by
  rcases entries_cons p g ws items with ⟨u, v, raw, q, later, rfl, h2, -⟩ | ⟨-, h⟩
  · rcases h with h | h
    · exact absurd rfl (h u)
    · rw [h2] at h
      exact absurd rfl (h _ rfl v)
  · exact h

theorem entries_append {p : ReportPart} {a b : List (Group × List Str)} (h : EndsKnown (entries p a)) :
    entries p (a ++ b) = entries p a ++ entries p b := by
  induction a with
  | nil => rfl
  | cons it a ih =>
    obtain ⟨g, ws⟩ := it
    rw [List.cons_append]
    rcases entries_cons p g ws a with ⟨u, v, raw, q, later, rfl, h2, h3⟩ | ⟨h1, h3⟩
    · rw [h3] at h ⊢
      have hl : EndsKnown (entries p a) := by
        rw [h2]
        intro x hx
        cases later with
        | nil => exact absurd rfl (h _ rfl u)
        | cons y later =>
          rw [List.getLast?_cons_cons] at hx
          exact h x (by rw [List.getLast?_cons_cons]; exact hx)
      have := ih hl
      rw [h2] at this
      rw [entries_def, this]
      rfl
    · rw [h3] at h ⊢
      have := ih (endsKnown_tail h)
      rw [entries_known_first, this]
      · rfl
      · by_cases hu : ∃ u, g = .unknown u
        · obtain ⟨u, rfl⟩ := hu
          right
          rw [this]
          have hb := h1 rfl
          cases he : entries p a with
          | nil =>
            rw [he] at h
            exact absurd rfl (h _ rfl u)
          | cons x l =>
            rw [he] at hb
            intro y hy
            exact hb y (by simpa using hy)
        · exact Or.inl fun u hu' => hu ⟨u, hu'⟩

/-- A place between two entries of which the first is not unknown is a place between two items. -/
theorem entries_split {p : ReportPart} {items : List (Group × List Str)} {ga gb : List GroupInfo}
    (he : entries p items = ga ++ gb) (h : EndsKnown ga) :
    ∃ ia ib, items = ia ++ ib ∧ entries p ia = ga ∧ entries p ib = gb := by
  induction items generalizing ga with
  | nil =>
    obtain ⟨rfl, rfl⟩ := List.append_eq_nil_iff.mp he.symm
    exact ⟨[], [], rfl, rfl, rfl⟩
  | cons it items ih =>
    cases ga with
    | nil => exact ⟨[], _, rfl, rfl, he⟩
    | cons x ga =>
      obtain ⟨g, ws⟩ := it
      rcases entries_cons p g ws items with ⟨u, v, raw, q, later, rfl, h2, h3⟩ | ⟨h1, h3⟩
      · rw [h3, List.cons_append] at he
        injection he with e1 e2
        have hga : ga ≠ [] := by
          rintro rfl
          exact absurd (by rw [← e1]) (h x rfl u)
        have hk : EndsKnown (⟨.unknown v, q, raw⟩ :: ga) := by
          intro y hy
          obtain ⟨z, ga, rfl⟩ := List.exists_cons_of_ne_nil hga
          rw [List.getLast?_cons_cons] at hy
          exact h y (by rw [List.getLast?_cons_cons]; exact hy)
        obtain ⟨ia, ib, rfl, i1, i2⟩ := ih (ga := ⟨.unknown v, q, raw⟩ :: ga) (by rw [h2, e2]; rfl) hk
        refine ⟨(.unknown u, ws) :: ia, ib, rfl, ?_, i2⟩
        rw [entries_def, i1, ← e1]
      · rw [h3, List.cons_append] at he
        injection he with e1 e2
        obtain ⟨ia, ib, rfl, i1, i2⟩ := ih e2 (endsKnown_tail h)
        refine ⟨(g, ws) :: ia, ib, rfl, ?_, i2⟩
        rw [entries_known_first, i1, e1]
        by_cases hu : ∃ u, g = .unknown u
        · obtain ⟨u, rfl⟩ := hu
          right
          rw [i1]
          have hb := h1 rfl
          rw [e2] at hb
          cases ga with
          | nil => intro y hy; cases hy
          | cons z ga => exact fun y hy => hb y hy
        · exact Or.inl fun u hu' => hu ⟨u, hu'⟩

/-- The words of the entries are the words of the items. -/
theorem entries_words {p : ReportPart} {items : List (Group × List Str)} (h : ∀ it ∈ items, ∀ w ∈ it.2, Parser.Tok w) :
    (entries p items).flatMap (fun x => words x.rawString) = items.flatMap (·.2) := by
  induction items with
  | nil => rfl
  | cons it items ih =>
    obtain ⟨g, ws⟩ := it
    have ih := ih fun it hi => h it (by simp [hi])
    have hw := words_unwords (h _ (List.mem_cons_self ..))
    rcases entries_cons p g ws items with ⟨u, v, raw, q, later, rfl, h2, h3⟩ | ⟨h1, h3⟩
    · rw [h2] at ih
      rw [h3]
      simp only [List.flatMap_cons, words_append] at ih ⊢
      rw [List.append_assoc, ih, hw]
    · rw [h3]
      simp only [List.flatMap_cons] at ih ⊢
      rw [ih, hw]

/-- The last item, if the last entry is not unknown. -/
theorem entries_last {p : ReportPart} {items : List (Group × List Str)} {g : Group} {ws : List Str}
    (h : EndsKnown (entries p (items ++ [(g, ws)]))) :
    (entries p (items ++ [(g, ws)])).getLast? = some ⟨g, p, unwords ws⟩ := by
  have last : ∀ items : List (Group × List Str), ∃ x, (entries p (items ++ [(.unknown {}, ws)])).getLast? = some x ∧
      x.group = .unknown {} := by
    intro items
    induction items with
    | nil => exact ⟨_, rfl, rfl⟩
    | cons it items ih =>
      obtain ⟨x, h1, h2⟩ := ih
      obtain ⟨g, vs⟩ := it
      rw [List.cons_append]
      rcases entries_cons p g vs (items ++ [(.unknown {}, ws)]) with ⟨u, v, raw, q, later, rfl, h3, h4⟩ | ⟨-, h4⟩
      · rw [h3] at h1
        rw [h4]
        cases later with
        | nil => exact ⟨_, rfl, rfl⟩
        | cons y later =>
          rw [List.getLast?_cons_cons] at h1 ⊢
          exact ⟨x, h1, h2⟩
      · rw [h4]
        cases he : entries p (items ++ [(.unknown {}, ws)]) with
        | nil => rw [he] at h1; cases h1
        | cons y later =>
          rw [he] at h1
          rw [List.getLast?_cons_cons]
          exact ⟨x, h1, h2⟩
  by_cases hg : ∃ u, g = .unknown u
  · obtain ⟨u, rfl⟩ := hg
    obtain ⟨x, h1, h2⟩ := last items
    exact absurd h2 (h x h1 {})
  · clear h last
    induction items with
    | nil =>
      rw [List.nil_append, entries_known_first (Or.inl fun u hu => hg ⟨u, hu⟩)]
      rfl
    | cons it items ih =>
      obtain ⟨g', vs⟩ := it
      rw [List.cons_append]
      rcases entries_cons p g' vs (items ++ [(g, ws)]) with ⟨u, v, raw, q, later, rfl, h3, h4⟩ | ⟨-, h4⟩
      · rw [h3] at ih
        rw [h4]
        cases later with
        | nil =>
          injection ih with ih
          injection ih with ih
          exact absurd ⟨_, ih.symm⟩ hg
        | cons y later =>
          rw [List.getLast?_cons_cons] at ih ⊢
          exact ih
      · rw [h4]
        cases he : entries p (items ++ [(g, ws)]) with
        | nil => rw [he] at ih; cases ih
        | cons y later =>
          rw [he] at ih
          rw [List.getLast?_cons_cons]
          exact ih

/-! ### The body -/

/-- The words `v` are the item `(g, v)` of the body: a group which is written so, or a word which is no group. -/
def OneGroup (p : ReportPart) (g : Group) (v : List Str) : Prop :=
  (Written p v g ∧ ¬ Unfinished v) ∨ (g = .unknown {} ∧ ∃ u, v = [u] ∧ ∀ g', ¬ Written p [u] g')

theorem divided_words {p : ReportPart} {ws : List Str} {items : List (Group × List Str)} (h : Divided p ws items) :
    ws = items.flatMap (·.2) := by
  induction h with
  | nil => rfl
  | group _ _ _ _ ih => simp [← ih]
  | broken _ _ _ _ ih => simp [← ih]
  | unknown _ _ ih => simp [← ih]

theorem divided_ne {p : ReportPart} (hp : isBody p) {ws : List Str} {items : List (Group × List Str)}
    (h : Divided p ws items) : ∀ it ∈ items, it.2 ≠ [] := by
  induction h with
  | nil => intro it hi; cases hi
  | group h _ _ _ ih => exact List.forall_mem_cons.mpr ⟨written_ne hp h, ih⟩
  | broken h _ _ _ ih => exact List.forall_mem_cons.mpr ⟨written_ne hp h, ih⟩
  | unknown _ _ ih => exact List.forall_mem_cons.mpr ⟨by simp, ih⟩

/-- What is known of the first of the words after an item is known of it after the insertion. -/
theorem head_insert {P : Str → Prop} {ia ib : List (Group × List Str)} {v : List Str} (hv : v ≠ [])
    (hne : ∀ it ∈ ia, it.2 ≠ []) (h1 : ∀ w, ((ia ++ ib).flatMap (·.2)).head? = some w → P w)
    (h2 : ia = [] → ∀ w, v.head? = some w → P w) :
    ∀ w, (ia.flatMap (·.2) ++ (v ++ ib.flatMap (·.2))).head? = some w → P w := by
  intro w hw
  cases ia with
  | nil =>
    refine h2 rfl w ?_
    cases v with
    | nil => exact absurd rfl hv
    | cons a v => simpa using hw
  | cons it ia =>
    refine h1 w ?_
    have := hne it (by simp)
    obtain ⟨g, l⟩ := it
    cases l with
    | nil => exact absurd rfl this
    | cons a l => simpa using hw

theorem divided_insert {p : ReportPart} (hp : isBody p) {ws v : List Str} {ia ib : List (Group × List Str)} {g : Group}
    (hd : Divided p ws (ia ++ ib)) (ho : OneGroup p g v) (hv : v ≠ [])
    (hlast : ∀ it, ia.getLast? = some it → ∀ w, v.head? = some w → ∀ g', ¬ Written p (it.2 ++ [w]) g')
    (hnext : (∀ u, g ≠ .unknown u) → ∀ w, (ib.flatMap (·.2)).head? = some w → ∀ g', ¬ Written p (v ++ [w]) g') :
    Divided p (ia.flatMap (·.2) ++ (v ++ ib.flatMap (·.2))) (ia ++ (g, v) :: ib) := by
  induction ia generalizing ws with
  | nil =>
    rw [List.nil_append] at hd
    rw [divided_words hd] at hd
    rcases ho with ⟨h1, h2⟩ | ⟨rfl, u, rfl, h⟩
    · refine .group h1 h2 (hnext ?_) hd
      rintro u rfl
      cases h1
    · exact .unknown h hd
  | cons it ia ih =>
    have hne := fun it hi => divided_ne hp hd it (by simpa using Or.inr (Or.inl hi))
    have hlast' : ∀ it, ia.getLast? = some it → ∀ w, v.head? = some w → ∀ g', ¬ Written p (it.2 ++ [w]) g' := by
      intro x hx
      refine hlast x ?_
      cases ia with
      | nil => cases hx
      | cons y ia => rw [List.getLast?_cons_cons]; exact hx
    have hone : ia = [] → ∀ w, v.head? = some w → ∀ g', ¬ Written p (it.2 ++ [w]) g' := by
      rintro rfl
      exact hlast it rfl
    rw [List.cons_append] at hd
    generalize hi : it :: (ia ++ ib) = items at hd
    cases hd with
    | nil => cases hi
    | group h1 h2 h3 h4 =>
      injection hi with hi1 hi2
      subst hi1 hi2
      rw [divided_words h4] at h3
      rw [List.flatMap_cons, List.append_assoc, List.cons_append]
      exact .group h1 h2 (head_insert hv hne h3 hone) (ih h4 hlast')
    | broken h1 h2 h3 h4 =>
      injection hi with hi1 hi2
      subst hi1 hi2
      rw [divided_words h4] at h3
      rw [List.flatMap_cons, List.append_assoc, List.cons_append]
      exact .broken h1 h2 (head_insert hv hne h3 hone) (ih h4 hlast')
    | unknown h1 h2 =>
      injection hi with hi1 hi2
      subst hi1 hi2
      rw [List.flatMap_cons, List.append_assoc, List.cons_append]
      exact .unknown h1 (ih h2 hlast')

/-- The last item of a division, if its entry is not unknown, is a group written so. -/
theorem divided_last {p : ReportPart} {ws : List Str} {ia ib : List (Group × List Str)} (hd : Divided p ws (ia ++ ib))
    {g : Group} {wl : List Str} (hl : ia.getLast? = some (g, wl)) (hk : ∀ u, g ≠ .unknown u) :
    Written p wl g ∧ ¬ Unfinished wl := by
  have : ∀ {items}, Divided p ws items → (g, wl) ∈ items → Written p wl g ∧ ¬ Unfinished wl := by
    clear hl hd
    intro items hd hm
    induction hd with
    | nil => cases hm
    | group h1 h2 _ _ ih =>
      rcases List.mem_cons.mp hm with hm | hm
      · cases hm
        exact ⟨h1, h2⟩
      · exact ih hm
    | broken _ _ _ _ ih =>
      rcases List.mem_cons.mp hm with hm | hm
      · cases hm
        exact absurd rfl (hk _)
      · exact ih hm
    | unknown _ _ ih =>
      rcases List.mem_cons.mp hm with hm | hm
      · cases hm
        exact absurd rfl (hk _)
      · exact ih hm
  exact this hd (List.mem_append_left _ (List.mem_of_getLast? hl))

/-- A word which is no group does not continue a finished group. -/
theorem unknown_apart {p : ReportPart} (hp : isBody p) {wl : List Str} {g : Group} {u : Str} (h : Written p wl g)
    (hf : ¬ Unfinished wl) (hu : ∀ g', ¬ Written p [u] g') : ∀ g', ¬ Written p (wl ++ [u]) g' := by
  intro g' hw
  have hr := written_reads hp (md := {}) h
  obtain ⟨g0, h0⟩ := (taken_iff hp hr u).mpr ⟨g', hw⟩
  rw [C67_other_kind hp hr hf u fun g1 => (not_recognised hp).mpr hu _ g1] at h0
  injection h0 with h0
  injection h0 with _ h0
  cases h0

/-- What follows the header, with one more group. -/
theorem body_insert {ty : ReportType} {now : Option Nat} {ws wb v : List Str} {n : Nat} {ga gb : List GroupInfo}
    {g : Group} (h : BodyMeaning ty now ws n (ga ++ gb) .NONE) (hn : hasWord .NIL (ga ++ gb) = false)
    (hc : hasWord .CNL (ga ++ gb) = false) (ht : ∀ w ∈ ws, Parser.Tok w)
    (hw : ws = ga.flatMap (fun x => words x.rawString) ++ wb) (hk : EndsKnown ga)
    (hr : ∀ x ∈ ga, x.group ≠ .keyword ⟨.RMK⟩)
    (hu : g = .unknown {} → BeginsKnown gb) (ho : OneGroup (bodyPart ty) g v)
    (hs : ∀ w ∈ v, w ∉ stops (bodyPart ty))
    (hlast : (∀ u, g ≠ .unknown u) → ∀ x, ga.getLast? = some x → ∀ w, v.head? = some w →
      ∀ g', ¬ Written (bodyPart ty) (words x.rawString ++ [w]) g')
    (hnext : (∀ u, g ≠ .unknown u) → ∀ w, wb.head? = some w → ∀ g', ¬ Written (bodyPart ty) (v ++ [w]) g') :
    BodyMeaning ty now (ga.flatMap (fun x => words x.rawString) ++ (v ++ wb)) (n + v.length)
      (ga ++ ⟨g, bodyPart ty, unwords v⟩ :: gb) .NONE := by
  have hp : isBody (bodyPart ty) := by
    cases ty
    · exact Or.inl rfl
    · exact Or.inl rfl
    · exact Or.inr rfl
  have hv : v ≠ [] := by
    rcases ho with ⟨h, -⟩ | ⟨-, u, rfl, -⟩
    · exact written_ne hp h
    · simp
  have main : ∀ {us rest : List Str} {items : List (Group × List Str)} {gb' : List GroupInfo},
      us ++ rest = ga.flatMap (fun x => words x.rawString) ++ wb → (∀ w ∈ us, Parser.Tok w) →
      entries (bodyPart ty) items = ga ++ gb' → (g = .unknown {} → BeginsKnown gb') → Divided (bodyPart ty) us items →
      (∀ w ∈ us, w ∉ stops (bodyPart ty)) →
      ∃ us' items', us' ++ rest = ga.flatMap (fun x => words x.rawString) ++ (v ++ wb) ∧
        us' ≠ [] ∧ us'.length = us.length + v.length ∧
        Divided (bodyPart ty) us' items' ∧
        entries (bodyPart ty) items' = ga ++ ⟨g, bodyPart ty, unwords v⟩ :: gb' ∧
        ∀ w ∈ us', w ∉ stops (bodyPart ty) := by
    intro us rest items gb' e ht he hu hd hst
    obtain ⟨ia, ib, rfl, e1, e2⟩ := entries_split he hk
    have eu := divided_words hd
    have hti : ∀ it ∈ ia, ∀ w ∈ it.2, Parser.Tok w := by
      intro it hi w hw
      refine ht w ?_
      rw [eu]
      exact List.mem_flatMap.mpr ⟨it, List.mem_append_left _ hi, hw⟩
    have ew := entries_words (p := bodyPart ty) hti
    rw [e1] at ew
    rw [List.flatMap_append] at eu
    rw [eu, ew, List.append_assoc] at e
    have eb := List.append_cancel_left e
    have lastItem : ∀ it, ia.getLast? = some it → ga.getLast? = some ⟨it.1, bodyPart ty, unwords it.2⟩ := by
      intro it hi
      obtain ⟨ia', rfl⟩ := List.getLast?_eq_some_iff.mp hi
      obtain ⟨g', wl⟩ := it
      rw [← e1] at hk ⊢
      exact entries_last hk
    have hd' := divided_insert hp hd ho hv (by
        intro it hi w hw
        have hx := lastItem it hi
        rcases ho with ⟨h1, h2⟩ | ⟨rfl, u, rfl, h⟩
        · have := hlast (by rintro u rfl; cases h1) _ hx w hw
          rwa [words_unwords (hti it (List.mem_of_getLast? hi))] at this
        · obtain ⟨h1, h2⟩ := divided_last hd (g := it.1) (wl := it.2) hi (hk _ hx)
          obtain rfl : u = w := by simpa using hw
          exact unknown_apart hp h1 h2 h)
      (fun hg w hw => hnext hg w (by
        rw [← eb]
        cases hib : ib.flatMap (·.2) with
        | nil => rw [hib] at hw; cases hw
        | cons a l => rw [hib] at hw; simpa using hw))
    refine ⟨_, _, ?_, ?_, ?_, hd', ?_, ?_⟩
    · rw [ew, List.append_assoc, List.append_assoc, eb]
    · simp [hv]
    · rw [eu]; simp only [List.length_append]; omega
    · have hk' : EndsKnown (entries (bodyPart ty) ia) := by rw [e1]; exact hk
      rw [entries_append hk', e1, entries_known_first, e2]
      by_cases hg : ∃ u, g = .unknown u
      · obtain ⟨u, rfl⟩ := hg
        right
        rw [e2]
        exact hu rfl
      · exact Or.inl fun u hg' => hg ⟨u, hg'⟩
    · intro w hw
      rcases List.mem_append.mp hw with hw | hw
      · exact hst w (by rw [eu]; exact List.mem_append_left _ hw)
      · rcases List.mem_append.mp hw with hw | hw
        · exact hs w hw
        · exact hst w (by rw [eu]; exact List.mem_append_right _ hw)
  generalize hx : ReportError.NONE = e at h
  generalize hy : ga ++ gb = gs at h
  cases h with
  | nothing => cases hx
  | nil => rw [hy] at hn; simp [hasWord] at hn
  | cnl => rw [hy] at hc; simp [hasWord] at hc
  | cnlMetar => cases hx
  | body h1 h2 h3 =>
    obtain ⟨us, items, a, b, c, d, e, f⟩ := main (rest := []) (by rw [List.append_nil]; exact hw) ht hy.symm hu h3 h2
    rw [List.append_nil] at a
    rw [← a, ← e, ← c]
    exact .body b f d
  | ended => cases hx
  | maintenance => cases hx
  | @remarks us rmk items m gs _ h1 h2 h3 =>
    subst hx
    rcases List.append_eq_append_iff.mp hy with ⟨c, hc1, hc2⟩ | ⟨c, hc1, hc2⟩
    · obtain ⟨us', items', a, b, d, e, f, i⟩ := main (rest := c!"RMK" :: rmk) (gb' := c) hw
        (fun w hw => ht w (List.mem_append_left _ hw)) hc1 (fun hg => by
          have := hu hg
          rw [hc2] at this
          intro x hx
          refine this x ?_
          cases c with
          | nil => cases hx
          | cons y c => exact hx) h2 h1
      have := BodyMeaning.remarks i e h3
      rw [a, f] at this
      rw [hc2]
      convert this using 1
      · omega
      · simp
    · cases c with
      | nil =>
        rw [List.append_nil] at hc1
        rw [List.nil_append] at hc2
        obtain ⟨us', items', a, b, d, e, f, i⟩ := main (rest := c!"RMK" :: rmk) (gb' := []) hw
          (fun w hw => ht w (List.mem_append_left _ hw)) (by rw [List.append_nil, hc1]) (fun _ x hx => by cases hx) h2 h1
        have := BodyMeaning.remarks i e h3
        rw [a, f] at this
        rw [← hc2]
        convert this using 1
        · omega
        · simp
      | cons y c =>
        rw [List.cons_append] at hc2
        injection hc2 with hc2 _
        exact absurd (by rw [← hc2]) (hr y (by rw [hc1]; simp))

/-! ### The remarks -/

theorem dividedRemarks_words {now : Option Nat} {ws : List Str} {items : List (Group × List Str)}
    (h : DividedRemarks now ws items) : ws = items.flatMap (·.2) := by
  induction h with
  | nil => rfl
  | group _ _ _ _ ih => simp [← ih]
  | lacking _ _ _ _ _ ih => simp [← ih]
  | ambiguous _ _ _ _ ih => simp [← ih]
  | unknown _ _ ih => simp [← ih]

/-- The first of the words after an item is the same after the insertion of a word, or it is that word. -/
theorem first_insert {ws : List Str} {now : Option Nat} {ia ib : List (Group × List Str)} {u : Str}
    (hd : DividedRemarks now ws (ia ++ ib))
    (hb : ∀ it, ib.head? = some it → ∀ y, it.1 ≠ .unknown y) :
    (ia = [] ∧ (ia.flatMap (·.2) ++ u :: ib.flatMap (·.2)).head? = some u) ∨
      (ia ≠ [] ∧ (ia.flatMap (·.2) ++ u :: ib.flatMap (·.2)).head? = ws.head?) := by
  cases ia with
  | nil => exact Or.inl ⟨rfl, rfl⟩
  | cons it ia =>
    refine Or.inr ⟨by simp, ?_⟩
    have first : ∀ {a : Group} {l : List Str} {r : List (Group × List Str)} {ws : List Str}, l ≠ [] → it = (a, l) →
        ws = l ++ r.flatMap (·.2) → ((it :: ia).flatMap (·.2) ++ u :: ib.flatMap (·.2)).head? = ws.head? := by
      rintro a l r ws hl rfl rfl
      cases l with
      | nil => exact absurd rfl hl
      | cons a l => rfl
    rw [List.cons_append] at hd
    generalize hi : it :: (ia ++ ib) = items at hd
    cases hd with
    | nil => cases hi
    | group h1 h2 h3 h4 =>
      injection hi with hi1 hi2
      subst hi2
      exact first (remark_ne h1) hi1 (by rw [dividedRemarks_words h4])
    | lacking h1 h2 h3 _ h4 =>
      injection hi with hi1 hi2
      subst hi2
      exact first (remark_ne h1) hi1 (by rw [dividedRemarks_words h4])
    | unknown h1 h2 =>
      injection hi with hi1 hi2
      subst hi2
      exact first (by simp) hi1 (by rw [dividedRemarks_words h2]; rfl)
    | ambiguous h1 h2 h3 h4 =>
      injection hi with hi1 hi2
      subst hi1
      cases ia with
      | nil =>
        rw [List.nil_append] at hi2
        exact absurd rfl (hb (.unknown {}, _) (by rw [hi2]; rfl) {})
      | cons a ia =>
        rw [List.cons_append] at hi2
        injection hi2 with hi2 _
        subst hi2
        rfl

/-- An unknown word inserted in the remarks. -/
theorem remarks_divided {now : Option Nat} {u : Str} (hu : ∀ g, ¬ Remark now [u] g) {ws : List Str}
    {items ia ib : List (Group × List Str)} (hd : DividedRemarks now ws items) (e : items = ia ++ ib)
    (hb : ∀ it, ib.head? = some it → ∀ y, it.1 ≠ .unknown y)
    (hl : ∀ it, ia.getLast? = some it → (∀ y, it.1 ≠ .unknown y) ∧ (∀ g, ¬ Remark now (it.2 ++ [u]) g) ∧
      ¬ Lacking u it.2) :
    DividedRemarks now (ia.flatMap (·.2) ++ u :: ib.flatMap (·.2)) (ia ++ (.unknown {}, [u]) :: ib) := by
  induction hd generalizing ia with
  | nil =>
    obtain ⟨rfl, rfl⟩ := List.append_eq_nil_iff.mp e.symm
    exact .unknown hu .nil
  | @group ws rest g items h1 h2 h3 h4 ih =>
    cases ia with
    | nil =>
      rw [List.nil_append] at e
      subst e
      have := DividedRemarks.unknown hu (.group h1 h2 h3 h4)
      rw [dividedRemarks_words h4] at this
      exact this
    | cons it ia =>
      rw [List.cons_append] at e
      injection e with e1 e2
      subst e1 e2
      have hl' : ∀ it, ia.getLast? = some it → (∀ y, it.1 ≠ .unknown y) ∧ (∀ g, ¬ Remark now (it.2 ++ [u]) g) ∧
          ¬ Lacking u it.2 := by
        intro x hx
        refine hl x ?_
        cases ia with
        | nil => cases hx
        | cons y ia => rw [List.getLast?_cons_cons]; exact hx
      rw [List.flatMap_cons, List.append_assoc, List.cons_append]
      refine .group h1 ?_ ?_ (ih rfl hl')
      · intro w hw
        rcases first_insert (u := u) h4 hb with ⟨rfl, h⟩ | ⟨-, h⟩
        · rw [h] at hw
          cases hw
          exact (hl _ rfl).2.1
        · rw [h] at hw
          exact h2 w hw
      · rw [List.headD_eq_head?_getD]
        rcases first_insert (u := u) h4 hb with ⟨rfl, h⟩ | ⟨-, h⟩
        · rw [h]
          exact (hl _ rfl).2.2
        · rw [h, ← List.headD_eq_head?_getD]
          exact h3
  | @lacking ws rest g items h1 h2 h3 h5 h4 ih =>
    cases ia with
    | nil =>
      rw [List.nil_append] at e
      subst e
      exact absurd rfl (hb _ rfl {})
    | cons it ia =>
      rw [List.cons_append] at e
      injection e with e1 e2
      subst e1 e2
      have hia : ia ≠ [] := by
        rintro rfl
        exact absurd rfl ((hl _ rfl).1 {})
      have hl' : ∀ it, ia.getLast? = some it → (∀ y, it.1 ≠ .unknown y) ∧ (∀ g, ¬ Remark now (it.2 ++ [u]) g) ∧
          ¬ Lacking u it.2 := by
        intro x hx
        refine hl x ?_
        cases ia with
        | nil => cases hx
        | cons y ia => rw [List.getLast?_cons_cons]; exact hx
      rw [List.flatMap_cons, List.append_assoc, List.cons_append]
      rcases first_insert (u := u) h4 hb with ⟨rfl, -⟩ | ⟨-, h⟩
      · exact absurd rfl hia
      · refine .lacking h1 ?_ ?_ h5 (ih rfl hl')
        · rw [h]
          exact h2
        · rw [List.headD_eq_head?_getD, h, ← List.headD_eq_head?_getD]
          exact h3
  | @ambiguous w rest y items h1 h2 h3 h4 ih =>
    cases ia with
    | nil =>
      rw [List.nil_append] at e
      subst e
      have := DividedRemarks.unknown hu (.ambiguous h1 h2 h3 h4)
      rw [dividedRemarks_words h4] at this
      exact this
    | cons it ia =>
      rw [List.cons_append] at e
      injection e with e1 e2
      subst e1
      cases ia with
      | nil =>
        rw [List.nil_append] at e2
        exact absurd rfl (hb (.unknown {}, [w]) (by rw [← e2]; rfl) {})
      | cons it ia =>
        rw [List.cons_append] at e2
        injection e2 with e1 e2
        subst e1 e2
        have hia : ia ≠ [] := by
          rintro rfl
          exact absurd rfl ((hl _ rfl).1 {})
        have hl' : ∀ it, ia.getLast? = some it → (∀ y, it.1 ≠ .unknown y) ∧ (∀ g, ¬ Remark now (it.2 ++ [u]) g) ∧
            ¬ Lacking u it.2 := by
          intro x hx
          refine hl x ?_
          cases ia with
          | nil => cases hx
          | cons y ia => rw [List.getLast?_cons_cons, List.getLast?_cons_cons]; exact hx
        rcases first_insert (u := u) h4 hb with ⟨rfl, -⟩ | ⟨-, h⟩
        · exact absurd rfl hia
        · have := DividedRemarks.ambiguous h1 h2 (by rw [h]; exact h3) (ih rfl hl')
          exact this
  | @unknown w rest items h1 h2 ih =>
    cases ia with
    | nil =>
      rw [List.nil_append] at e
      subst e
      exact absurd rfl (hb _ rfl {})
    | cons it ia =>
      rw [List.cons_append] at e
      injection e with e1 e2
      subst e1 e2
      have hl' : ∀ it, ia.getLast? = some it → (∀ y, it.1 ≠ .unknown y) ∧ (∀ g, ¬ Remark now (it.2 ++ [u]) g) ∧
          ¬ Lacking u it.2 := by
        intro x hx
        refine hl x ?_
        cases ia with
        | nil => cases hx
        | cons y ia => rw [List.getLast?_cons_cons]; exact hx
      exact .unknown h1 (ih rfl hl')

/-- The group of the word `RMK` is not among the entries of the body. -/
theorem no_rmk {p : ReportPart} {us : List Str} {items : List (Group × List Str)} (hd : Divided p us items)
    (hs : ∀ w ∈ us, w ∉ stops p) : ∀ x ∈ entries p items, x.group ≠ .keyword ⟨.RMK⟩ := by
  intro x hx hg
  obtain ⟨⟨g, wl⟩, hi, e⟩ := entries_group items x hx
  rw [hg] at e
  have hw := divided_words hd
  have : ∀ {us items}, Divided p us items → (.keyword ⟨.RMK⟩, wl) ∈ items → Written p wl (.keyword ⟨.RMK⟩) := by
    intro us items hd hm
    induction hd with
    | nil => cases hm
    | group h1 h2 _ _ ih =>
      rcases List.mem_cons.mp hm with hm | hm
      · cases hm
        exact h1
      · exact ih hm
    | broken _ _ _ _ ih =>
      rcases List.mem_cons.mp hm with hm | hm
      · cases hm
      · exact ih hm
    | unknown _ _ ih =>
      rcases List.mem_cons.mp hm with hm | hm
      · cases hm
      · exact ih hm
  change Group.keyword ⟨.RMK⟩ = g at e
  subst e
  have hk := this hd hi
  generalize hk' : Group.keyword ⟨.RMK⟩ = k at hk
  cases hk with
  | @keyword w k h =>
    injection hk' with hk'
    injection hk' with hk'
    subst hk'
    obtain ⟨ps, h1, h2⟩ := h
    have hw' : w = c!"RMK" := by
      simp only [keywords, List.mem_cons, Prod.mk.injEq, List.not_mem_nil, or_false, reduceCtorEq, false_and, and_false,
        or_self, false_or] at h1
      exact h1.1
    refine hs w ?_ ?_
    · rw [hw]
      exact List.mem_flatMap.mpr ⟨_, hi, by simp⟩
    · rw [hw']
      cases p <;> decide
  | _ => cases hk'

/-- What follows the header, with one more word in the remarks. -/
theorem body_insert_remark {ty : ReportType} {now : Option Nat} {ws wb : List Str} {n : Nat} {ga gb : List GroupInfo}
    {u : Str} (h : BodyMeaning ty now ws n (ga ++ gb) .NONE) (hn : hasWord .NIL (ga ++ gb) = false)
    (hc : hasWord .CNL (ga ++ gb) = false) (ht : ∀ w ∈ ws, Parser.Tok w)
    (hw : ws = ga.flatMap (fun x => words x.rawString) ++ wb) (hk : EndsKnown ga)
    (hr : ∃ x ∈ ga, x.group = .keyword ⟨.RMK⟩) (hb : BeginsKnown gb) (hu : ∀ g, ¬ Remark now [u] g)
    (hlast : ∀ x, ga.getLast? = some x → x.reportPart = .RMK →
      (∀ g, ¬ Remark now (words x.rawString ++ [u]) g) ∧ ¬ Lacking u (words x.rawString)) :
    BodyMeaning ty now (ga.flatMap (fun x => words x.rawString) ++ (u :: wb)) (n + 1)
      (ga ++ ⟨.unknown {}, .RMK, u⟩ :: gb) .NONE := by
  generalize hx : ReportError.NONE = e at h
  generalize hy : ga ++ gb = gs at h
  have inBody : ∀ {items : List (Group × List Str)} {us : List Str} {c : List GroupInfo},
      Divided (bodyPart ty) us items → (∀ w ∈ us, w ∉ stops (bodyPart ty)) →
      entries (bodyPart ty) items = ga ++ c → False := by
    intro items us c h2 h1 h3
    obtain ⟨x, hx, hg⟩ := hr
    exact no_rmk h2 h1 x (by rw [h3]; exact List.mem_append_left _ hx) hg
  cases h with
  | nothing => cases hx
  | nil => rw [hy] at hn; simp [hasWord] at hn
  | cnl => rw [hy] at hc; simp [hasWord] at hc
  | cnlMetar => cases hx
  | body h1 h2 h3 => exact (inBody h3 h2 hy.symm).elim
  | ended => cases hx
  | maintenance => cases hx
  | @remarks us rmk items m gs _ h1 h2 h3 =>
    rcases List.append_eq_append_iff.mp hy with ⟨c, hc1, hc2⟩ | ⟨c, hc1, hc2⟩
    · exact (inBody h2 h1 hc1).elim
    · cases c with
      | nil => exact (inBody (c := []) h2 h1 (by rw [hc1, List.append_nil, List.append_nil])).elim
      | cons y c =>
        rw [List.cons_append] at hc2
        injection hc2 with hc2 hc3
        subst hc2 hc1
        cases h3 with
        | maintenance => cases hx
        | @all _ ritems hd h3 =>
          have hkc : EndsKnown c := by
            intro x hx
            refine hk x ?_
            rw [List.getLast?_append, List.getLast?_cons, hx]
            rfl
          obtain ⟨ia, ib, rfl, e1, e2⟩ := entries_split hc3 hkc
          have hti : ∀ it ∈ ia, ∀ w ∈ it.2, Parser.Tok w := by
            intro it hi w hw
            refine ht w ?_
            rw [dividedRemarks_words h3]
            exact List.mem_append_right _ (List.mem_cons_of_mem _
              (List.mem_flatMap.mpr ⟨it, List.mem_append_left _ hi, hw⟩))
          have htb : ∀ it ∈ items, ∀ w ∈ it.2, Parser.Tok w := by
            intro it hi w hw
            refine ht w ?_
            rw [divided_words h2]
            exact List.mem_append_left _ (List.mem_flatMap.mpr ⟨it, hi, hw⟩)
          have ew := entries_words (p := .RMK) hti
          have ew' := entries_words (p := bodyPart ty) htb
          rw [← divided_words h2] at ew'
          rw [e1] at ew
          have hrm : words c!"RMK" = [c!"RMK"] := rfl
          have el : (entries (bodyPart ty) items ++ ⟨.keyword ⟨.RMK⟩, bodyPart ty, c!"RMK"⟩ :: c).flatMap
              (fun x => words x.rawString) = us ++ c!"RMK" :: ia.flatMap (·.2) := by
            rw [List.flatMap_append, List.flatMap_cons, ew, ew', hrm]
            rfl
          rw [el] at hw ⊢
          rw [List.append_assoc, List.cons_append] at hw ⊢
          have eb := List.append_cancel_left hw
          injection eb with _ eb
          have er := dividedRemarks_words h3
          rw [List.flatMap_append] at er
          rw [er] at eb
          have eb := List.append_cancel_left eb
          have lastItem : ∀ it, ia.getLast? = some it → c.getLast? = some ⟨it.1, .RMK, unwords it.2⟩ := by
            intro it hi
            obtain ⟨ia', rfl⟩ := List.getLast?_eq_some_iff.mp hi
            obtain ⟨g', wl⟩ := it
            rw [← e1] at hkc ⊢
            exact entries_last hkc
          have hbi : ∀ it, ib.head? = some it → ∀ y, it.1 ≠ .unknown y := by
            intro it hi y hy
            cases ib with
            | nil => cases hi
            | cons it' ib =>
              obtain ⟨g', wl⟩ := it'
              cases hi
              change g' = _ at hy
              subst hy
              rcases entries_cons .RMK (.unknown y) wl ib with ⟨u', v, raw, q, later, -, -, h⟩ | ⟨-, h⟩
              · rw [h] at e2
                exact absurd rfl (hb ⟨.unknown u', _, _⟩ (by rw [← e2]; rfl) u')
              · rw [h] at e2
                exact absurd rfl (hb ⟨.unknown y, _, _⟩ (by rw [← e2]; rfl) y)
          have hdiv := remarks_divided hu h3 rfl hbi (by
            intro it hi
            have hxl := lastItem it hi
            have hgl : (entries (bodyPart ty) items ++ ⟨.keyword ⟨.RMK⟩, bodyPart ty, c!"RMK"⟩ :: c).getLast? =
                some ⟨it.1, .RMK, unwords it.2⟩ := by
              rw [List.getLast?_append, List.getLast?_cons, hxl]
              rfl
            have := hlast _ hgl rfl
            rw [words_unwords (hti it (List.mem_of_getLast? hi))] at this
            exact ⟨hkc _ hxl, this⟩)
          have hnd : u ≠ c!"$" := by
            rintro rfl
            refine hu _ (.keyword (k := .MAINTENANCE_INDICATOR) ?_)
            exact ⟨[.UNKNOWN, .HEADER, .METAR, .TAF, .RMK], by simp [keywords], by decide⟩
          have hen : entries .RMK (ia ++ (.unknown {}, [u]) :: ib) = c ++ ⟨.unknown {}, .RMK, u⟩ :: gb := by
            have hk' : EndsKnown (entries .RMK ia) := by rw [e1]; exact hkc
            rw [entries_append hk', e1, entries_known_first (Or.inr (by rw [e2]; exact hb)), e2]
            rfl
          have := BodyMeaning.remarks (now := now) h1 h2 (RemarksMeaning.all (ty := ty) (by
            intro hty hm
            rcases List.mem_append.mp hm with hm | hm
            · exact hd hty (by rw [er]; exact List.mem_append_left _ hm)
            · rcases List.mem_cons.mp hm with hm | hm
              · exact hnd hm.symm
              · exact hd hty (by rw [er]; exact List.mem_append_right _ hm)) hdiv)
          rw [hen, eb] at this
          rw [er, eb]
          convert this using 1
          · simp only [List.length_append, List.length_cons]; omega
          · simp

end Metaf.Props
