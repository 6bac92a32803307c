import Verif.Props.ExplainPlain

/-!
C101 and C102: markup in the page made by `explain` (`/repo/examples/explain.cpp`), and what the page tells
about the result of the parser.
-/

set_option linter.unusedSectionVars false

namespace Metaf.Props

open Metaf Metaf.Spec Metaf.Explain

variable [FloatIeee]

/-! ### Characters of the cells -/

theorem plain_capital {c : Char} (h : Capital c ∨ Digit c) : Plain c := by
  have : ∀ {a b : Char}, a ≤ b → a.toNat ≤ b.toNat := fun h => h
  refine Or.inr ⟨?_, ?_, ?_⟩
  · rcases h with h | h
    · exact le_trans (by decide) (this h.1)
    · exact le_trans (by decide) (this h.1)
  · rcases h with h | h
    · exact le_trans (this h.2) (by decide)
    · exact le_trans (this h.2) (by decide)
  · rintro rfl
    revert h
    unfold Capital Digit
    decide

theorem location_plain {report : Str} {limit : Nat} {r : ParseResult} (h : Result report limit r) :
    ∀ x ∈ r.groups, ∀ l, x.group = .location l → PlainText l.location := by
  refine every_group (O := fun _ g => ∀ l, g = .location l → PlainText l.location) ?_ ?_ ?_ ?_ ?_ ?_ h
  · intro u p l hl; cases hl
  · intro s g hw l hl
    subst hl
    cases hw with
    | location hs =>
      obtain ⟨a, b, c, d, rfl, ha, hb, hc, hd⟩ := hs
      simp only [PlainText, List.mem_cons, List.not_mem_nil, or_false, forall_eq_or_imp, forall_eq]
      exact ⟨plain_capital (Or.inl ha), plain_capital hb, plain_capital hc, plain_capital hd⟩
  · intro k l hl; cases hl
  · intro p ws g _ hw _ l hl
    subst hl
    cases hw
  · intro now ws g next hr _ l hl
    have hs : ∀ g, settled g = .location l → g = .location l := by
      intro g hg
      cases g <;> first | exact hg | cases hg
    obtain rfl := hs g hl
    cases hr with
    | fixed h =>
      exfalso
      have : ∀ x ∈ fixedWords, ∀ l, x.2 ≠ .location l := by
        unfold fixedWords
        simp
      exact this _ h l rfl
    | missing h =>
      exfalso
      have : ∀ x ∈ missingWords, ∀ l, x.2.1 ≠ .location l := by
        unfold missingWords
        simp
      exact this _ h l rfl
    | missingSaid h =>
      exfalso
      have : ∀ x ∈ missingWords, ∀ l, x.2.2 ≠ .location l := by
        unfold missingWords
        simp
      exact this _ h l rfl
  · intro now w y _ _ l hl; cases hl

theorem layout_chars {ws : List Str} {s : Str} (h : Layout ws s) : ∀ w ∈ ws, ∀ c ∈ w, c ∈ s ∧ ¬ Blank c := by
  induction h with
  | nil => intro w hw; cases hw
  | cons hl hn hb hs _ ih =>
    intro w hw c hc
    rcases List.mem_cons.mp hw with rfl | hw
    · exact ⟨List.mem_append_right _ (List.mem_append_left _ hc), hb c hc⟩
    · have := ih w hw c hc
      exact ⟨List.mem_append_right _ (List.mem_append_right _ this.1), this.2⟩

theorem pieces_chars {w : Str} {ps : List Str} (h : Pieces w ps) : ∀ p ∈ ps, ∀ c ∈ p, c ∈ w := by
  induction h with
  | nil => intro p hp; cases hp
  | last _ =>
    intro p hp c hc
    rw [List.mem_singleton] at hp
    subst hp
    exact hc
  | cut _ _ ih =>
    intro p hp c hc
    rcases List.mem_cons.mp hp with rfl | hp
    · rcases List.mem_cons.mp hc with rfl | hc
      · exact List.mem_cons_self
      · refine List.mem_cons_of_mem _ ?_
        rcases List.mem_append.mp hc with hc | hc
        · exact List.mem_append_left _ hc
        · rw [List.mem_singleton] at hc
          subst hc
          exact List.mem_append_right _ List.mem_cons_self
    · exact List.mem_cons_of_mem _ (List.mem_append_right _ (List.mem_cons_of_mem _ (ih p hp c hc)))

theorem group_chars {s : Str} {ts : List Str} (h : Groups s ts) : ∀ t ∈ ts, ∀ c ∈ t, c ∈ s ∧ ¬ Blank c := by
  obtain ⟨ws, pss, hl, hp, rfl⟩ := h
  intro t ht c hc
  obtain ⟨ps, hps, ht⟩ := List.mem_flatten.mp ht
  have key : ∀ {ws : List Str} {pss : List (List Str)}, List.Forall₂ Pieces ws pss → ps ∈ pss → ∃ w ∈ ws, Pieces w ps := by
    intro ws pss h hm
    induction h with
    | nil => cases hm
    | cons h _ ih =>
      rcases List.mem_cons.mp hm with rfl | hm
      · exact ⟨_, List.mem_cons_self, h⟩
      · obtain ⟨w, hw, hp⟩ := ih hm
        exact ⟨w, List.mem_cons_of_mem _ hw, hp⟩
  obtain ⟨w, hw, hpw⟩ := key hp hps
  have := layout_chars hl w hw c (pieces_chars hpw t ht c hc)
  exact ⟨List.takeWhile_subset _ this.1, this.2⟩

theorem raw_chars {report : Str} {limit : Nat} {r : ParseResult} (h : Result report limit r) :
    ∀ x ∈ r.groups, ∀ c ∈ x.rawString, c = ' ' ∨ c ∈ report ∧ ¬ Blank c := by
  intro x hx c hc
  obtain ⟨k, h1, -, h3, -⟩ := C04_no_text_lost report limit _ r (groups_tokens report) h
  rw [← h3 x hx] at hc
  rcases mem_unwords _ _ hc with hc | ⟨w, hw, hc⟩
  · exact Or.inl hc
  · have : w ∈ (tokens report).take k := by
      rw [← h1]
      exact List.mem_flatMap.mpr ⟨x, hx, hw⟩
    exact Or.inr (group_chars (groups_tokens report) w (List.mem_of_mem_take this) c hc)

/-- What is written about a group of a result, apart from the warning and words: the raw text only. -/
theorem visit_chars {report : Str} {limit : Nat} {r : ParseResult} (h : Result report limit r) {x : GroupInfo}
    (hx : x ∈ r.groups) {e : Str} (he : visitor.visit x.group x.reportPart x.rawString = .ok e) :
    ∀ c ∈ e, Plain c ∨ c ∈ x.rawString := by
  intro c hc
  rcases visit_plain he c hc with h1 | h1 | ⟨l, hl, h1⟩
  · exact Or.inl h1
  · exact Or.inr h1
  · exact Or.inl (location_plain h x hx l hl c h1)

theorem plain_tag : ¬ Plain '<' := by decide

theorem forall₂_zip {α β γ : Type} {f : α → γ} {P : α → β → Prop} {as : List α} {bs : List β}
    (h : List.Forall₂ P as bs) : ∀ y ∈ (as.map f).zip bs, ∃ a ∈ as, f a = y.1 ∧ P a y.2 := by
  induction h with
  | nil => intro y hy; cases hy
  | cons h _ ih =>
    intro y hy
    rw [List.map_cons, List.zip_cons_cons] at hy
    rcases List.mem_cons.mp hy with rfl | hy
    · exact ⟨_, List.mem_cons_self, rfl, h⟩
    · obtain ⟨a, ha, h1⟩ := ih y hy
      exact ⟨a, List.mem_cons_of_mem _ ha, h1⟩

/-! ### C101 -/

/-- C101 (partial: a text with `<` in it can add tags). In the page for a text without the character `<`
all tags are those of the table and of the line breaks. -/
theorem C101_markup_partial {memory input out : Str} (h : explain memory input = .ok out) (hi : '<' ∉ input) :
    ∃ type error rows, out = page type error rows ∧ '<' ∉ type ∧ (∀ e ∈ error, '<' ∉ e) ∧
      ∀ x ∈ rows, '<' ∉ x.1 ∧ '<' ∉ x.2 := by
  obtain ⟨r, es, hr, hes, rfl⟩ := C99_page h
  refine ⟨_, _, _, rfl, fun hc => plain_tag (plain_reportTypeToString _ _ hc), ?_, ?_⟩
  · intro e he hc
    split at he
    · cases he
    · cases he
      exact plain_tag (plain_reportErrorToString _ _ hc)
  · intro y hy
    obtain ⟨x, hx, h1, he⟩ := forall₂_zip hes y hy
    have hraw : '<' ∉ x.rawString := by
      intro hc
      rcases raw_chars hr x hx _ hc with h2 | ⟨h2, -⟩
      · revert h2; decide
      · exact hi h2
    rw [← h1]
    refine ⟨hraw, fun hc => ?_⟩
    rcases visit_chars hr hx he _ hc with h2 | h2
    · exact plain_tag h2
    · exact hraw h2

theorem mem_tableRow {c : Char} {a b : Str} (h : c ∈ tableRow a b) :
    (33 ≤ c.toNat ∧ c.toNat ≤ 126) ∨ c ∈ a ∨ c ∈ b := by
  have key : ∀ c ∈ c!"<tr></td>", 33 ≤ c.toNat ∧ c.toNat ≤ 126 := by decide
  simp only [tableRow, List.mem_append] at h
  rcases h with (((h | h) | h) | h) | h
  · refine Or.inl (key c ?_); revert h; simp; tauto
  · exact Or.inr (Or.inl h)
  · refine Or.inl (key c ?_); revert h; simp; tauto
  · exact Or.inr (Or.inr h)
  · refine Or.inl (key c ?_); revert h; simp; tauto

/-- C101. For every text: all characters of the page are printable ASCII characters or occur in the text,
and the page is a single line. -/
theorem C101_characters {memory input out : Str} (h : explain memory input = .ok out) :
    ∀ c ∈ out, c ≠ '\n' ∧ (32 ≤ c.toNat ∧ c.toNat ≤ 126 ∨ c ∈ input) := by
  obtain ⟨r, es, hr, hes, rfl⟩ := C99_page h
  have hline : ∀ {s : Str} {X : Str}, (∀ c ∈ s, Plain c ∨ c ∈ X) → (∀ c ∈ X, c ≠ '\n') →
      ∀ c ∈ lines s, c ≠ '\n' ∧ (32 ≤ c.toNat ∧ c.toNat ≤ 126 ∨ c ∈ X) := by
    intro s X hs hX c hc
    obtain ⟨d, hd, hc⟩ := List.mem_flatMap.mp hc
    split at hc
    · have : ∀ c ∈ c!"<br>", c ≠ '\n' ∧ (32 ≤ c.toNat ∧ c.toNat ≤ 126) := by decide
      exact ⟨(this c hc).1, Or.inl (this c hc).2⟩
    · rename_i hd'
      rw [List.mem_singleton] at hc
      subst hc
      refine ⟨hd', ?_⟩
      rcases hs c hd with (h1 | h1) | h1
      · exact absurd h1 hd'
      · exact Or.inl ⟨h1.1, h1.2.1⟩
      · exact Or.inr h1
  have printable : ∀ c : Char, 32 ≤ c.toNat ∧ c.toNat ≤ 126 → c ≠ '\n' ∧ (32 ≤ c.toNat ∧ c.toNat ≤ 126 ∨ c ∈ input) := by
    intro c hc
    refine ⟨?_, Or.inl hc⟩
    rintro rfl
    revert hc
    decide
  have consts : ∀ (s : Str), (∀ c ∈ s, 32 ≤ c.toNat ∧ c.toNat ≤ 126) → ∀ c ∈ s, c ≠ '\n' ∧ (32 ≤ c.toNat ∧ c.toNat ≤ 126 ∨ c ∈ input) :=
    fun s hs c hc => printable c (hs c hc)
  have htype : ∀ t : ReportType, ∀ c ∈ reportTypeToString t, 32 ≤ c.toNat ∧ c.toNat ≤ 126 := by
    intro t; cases t <;> decide
  have herror : ∀ t : ReportError, ∀ c ∈ reportErrorToString t, 32 ≤ c.toNat ∧ c.toNat ≤ 126 := by
    intro t; cases t <;> decide +kernel
  intro c hc
  simp only [page, List.mem_append] at hc
  rcases hc with (((hc | hc) | hc) | hc) | hc
  · exact consts _ (by decide +kernel) c hc
  · rcases mem_tableRow hc with hc | hc | hc
    · exact printable c ⟨by omega, by omega⟩
    · exact consts _ (by decide) c hc
    · rcases List.mem_append.mp hc with hc | hc
      · exact consts _ (by decide) c hc
      · exact consts _ (htype _) c hc
  · split at hc
    · cases hc
    · rename_i e he
      split at he
      · cases he
      · cases he
        rcases mem_tableRow hc with hc | hc | hc
        · exact printable c ⟨by omega, by omega⟩
        · exact consts _ (by decide) c hc
        · rcases List.mem_append.mp hc with hc | hc
          · exact consts _ (by decide) c hc
          · exact consts _ (herror _) c hc
  · obtain ⟨s, hs, hc⟩ := List.mem_flatten.mp hc
    obtain ⟨y, hy, rfl⟩ := List.mem_map.mp hs
    obtain ⟨x, hx, h1, he⟩ := forall₂_zip hes y hy
    have hraw : ∀ c ∈ x.rawString, c ≠ '\n' ∧ (32 ≤ c.toNat ∧ c.toNat ≤ 126 ∨ c ∈ input) := by
      intro c hc
      rcases raw_chars hr x hx _ hc with h2 | ⟨h2, h3⟩
      · subst h2; exact printable _ (by decide)
      · refine ⟨?_, Or.inr h2⟩
        rintro rfl
        exact h3 (by decide)
    rw [← h1] at hc
    rcases mem_tableRow hc with hc | hc | hc
    · exact printable c ⟨by omega, by omega⟩
    · exact hraw c hc
    · have := hline (visit_chars hr hx he) (fun c hc => (hraw c hc).1) c hc
      refine ⟨this.1, ?_⟩
      rcases this.2 with h2 | h2
      · exact Or.inl h2
      · exact (hraw c h2).2
  · exact consts _ (by decide) c hc

/-! ### C102 -/

theorem cell_cut {a b x y : Str} (ha : '<' ∉ a) (hb : '<' ∉ b) (h : a ++ '<' :: x = b ++ '<' :: y) :
    a = b ∧ x = y := by
  induction a generalizing b with
  | nil =>
    cases b with
    | nil => exact ⟨rfl, (List.cons.inj h).2⟩
    | cons d b =>
      have := (List.cons.inj h).1
      subst this
      exact absurd List.mem_cons_self hb
  | cons c a ih =>
    cases b with
    | nil =>
      have := (List.cons.inj h).1
      subst this
      exact absurd List.mem_cons_self ha
    | cons d b =>
      obtain ⟨h1, h2⟩ := List.cons.inj h
      obtain ⟨rfl, h3⟩ := ih (fun hc => ha (List.mem_cons_of_mem _ hc)) (fun hc => hb (List.mem_cons_of_mem _ hc)) h2
      exact ⟨by rw [h1], h3⟩

theorem lines_cons (c : Char) (s : Str) : lines (c :: s) = (if c = '\n' then c!"<br>" else [c]) ++ lines s := rfl

theorem lines_cut {a b x y : Str} (ha : '<' ∉ a) (hb : '<' ∉ b)
    (h : lines a ++ '<' :: '/' :: x = lines b ++ '<' :: '/' :: y) : a = b ∧ x = y := by
  induction a generalizing b with
  | nil =>
    cases b with
    | nil => exact ⟨rfl, by simpa [lines] using h⟩
    | cons d b =>
      exfalso
      rw [lines_cons] at h
      split at h
      · simp [lines] at h
      · have := (List.cons.inj h).1
        subst this
        exact absurd List.mem_cons_self hb
  | cons c a ih =>
    have ha' : '<' ∉ a := fun hc => ha (List.mem_cons_of_mem _ hc)
    have hc : c ≠ '<' := fun hc => ha (hc ▸ List.mem_cons_self)
    cases b with
    | nil =>
      exfalso
      rw [lines_cons] at h
      split at h
      · simp [lines] at h
      · exact hc (List.cons.inj h).1
    | cons d b =>
      have hb' : '<' ∉ b := fun hc => hb (List.mem_cons_of_mem _ hc)
      have hd : d ≠ '<' := fun hc => hb (hc ▸ List.mem_cons_self)
      rw [lines_cons, lines_cons] at h
      by_cases h1 : c = '\n' <;> by_cases h2 : d = '\n'
      · rw [if_pos h1, if_pos h2, List.append_assoc, List.append_assoc] at h
        obtain ⟨rfl, h3⟩ := ih ha' hb' (List.append_cancel_left h)
        exact ⟨by rw [h1, h2], h3⟩
      · rw [if_pos h1, if_neg h2] at h
        exact absurd (List.cons.inj h).1.symm hd
      · rw [if_neg h1, if_pos h2] at h
        exact absurd (List.cons.inj h).1 hc
      · rw [if_neg h1, if_neg h2] at h
        obtain ⟨h4, h5⟩ := List.cons.inj h
        obtain ⟨rfl, h3⟩ := ih ha' hb' h5
        exact ⟨by rw [h4], h3⟩

/-- The rows of a table as a text. -/
def rowsText (rows : List (Str × Str)) : Str := (rows.map fun r => tableRow r.1 (lines r.2)).flatten

theorem rows_cut {R S : List (Str × Str)} (hR : ∀ x ∈ R, '<' ∉ x.1 ∧ '<' ∉ x.2) (hS : ∀ x ∈ S, '<' ∉ x.1 ∧ '<' ∉ x.2)
    (h : rowsText R ++ c!"</tbody>" = rowsText S ++ c!"</tbody>") : R = S := by
  have hcons : ∀ (x : Str × Str) (R : List (Str × Str)), rowsText (x :: R) ++ c!"</tbody>" =
      '<' :: 't' :: 'r' :: '>' :: '<' :: 't' :: 'd' :: '>' :: (x.1 ++ '<' :: '/' :: 't' :: 'd' :: '>' :: '<' :: 't' :: 'd' :: '>' ::
        (lines x.2 ++ '<' :: '/' :: 't' :: 'd' :: '>' :: '<' :: '/' :: 't' :: 'r' :: '>' :: (rowsText R ++ c!"</tbody>"))) := by
    intro x R
    simp [rowsText, tableRow]
  induction R generalizing S with
  | nil =>
    cases S with
    | nil => rfl
    | cons y S => rw [hcons] at h; simp [rowsText] at h
  | cons x R ih =>
    cases S with
    | nil => rw [hcons] at h; simp [rowsText] at h
    | cons y S =>
      rw [hcons, hcons] at h
      simp only [List.cons.injEq, true_and] at h
      obtain ⟨h1, h2⟩ := cell_cut (hR x List.mem_cons_self).1 (hS y List.mem_cons_self).1 h
      simp only [List.cons.injEq, true_and] at h2
      obtain ⟨h3, h4⟩ := lines_cut (hR x List.mem_cons_self).2 (hS y List.mem_cons_self).2 h2
      simp only [List.cons.injEq, true_and] at h4
      rw [ih (fun z hz => hR z (List.mem_cons_of_mem _ hz)) (fun z hz => hS z (List.mem_cons_of_mem _ hz)) h4]
      rw [Prod.ext h1 h3]

/-- All rows of a page. -/
def allRows (type : Str) (error : Option Str) (rows : List (Str × Str)) : List (Str × Str) :=
  (c!"&nbsp;", c!"Detected report type: " ++ type) ::
    ((error.toList.map fun e => (c!"&nbsp;", errorIntro ++ e)) ++ rows)

theorem page_rows {type : Str} {error : Option Str} {rows : List (Str × Str)} (ht : '\n' ∉ type)
    (he : ∀ e ∈ error, '\n' ∉ e) : page type error rows =
    c!"<thead><tr><th>Group</th><th>Explanation</th></tr></thead><tbody>" ++
      (rowsText (allRows type error rows) ++ c!"</tbody>") := by
  have hl : ∀ s : Str, '\n' ∉ s → lines s = s := fun s hs => withBreaks_self hs
  have h1 : lines (c!"Detected report type: " ++ type) = c!"Detected report type: " ++ type := by
    refine hl _ ?_
    rw [List.mem_append]
    rintro (h | h)
    · revert h; decide
    · exact ht h
  cases error with
  | none =>
    unfold page rowsText allRows
    simp only [Option.toList, List.map_nil, List.nil_append, List.map_cons, List.flatten_cons, h1, List.append_nil,
      List.append_assoc]
  | some e =>
    have h2 : lines (errorIntro ++ e) = errorIntro ++ e := by
      refine hl _ ?_
      rw [List.mem_append]
      rintro (h | h)
      · revert h; decide
      · exact he e rfl h
    unfold page rowsText allRows
    simp only [Option.toList, List.map_nil, List.map_cons, List.flatten_cons, h1, h2,
      List.append_assoc, List.singleton_append]
    rfl

theorem zip_raws {P : GroupInfo → Str → Prop} {gs hs : List GroupInfo} {es fs : List Str}
    (h1 : List.Forall₂ P gs es) (h2 : List.Forall₂ P hs fs)
    (h : (gs.map (·.rawString)).zip es = (hs.map (·.rawString)).zip fs) :
    gs.map (·.rawString) = hs.map (·.rawString) := by
  have := congrArg (List.map Prod.fst) h
  rwa [List.map_fst_zip (by simp [h1.length_eq]), List.map_fst_zip (by simp [h2.length_eq])] at this

/-- C102. The page determines the result of the parser: if two texts without the character `<` give the same
page, then the parser gives the same result for both. -/
theorem C102_determines {memory memory' a b out : Str} (ha : explain memory a = .ok out)
    (hb : explain memory' b = .ok out) (hai : '<' ∉ a) (hbi : '<' ∉ b) :
    ∃ r, Result a 200 r ∧ Result b 200 r := by
  obtain ⟨r, es, hr, hes, rfl⟩ := C99_page ha
  obtain ⟨r', es', hr', hes', hp⟩ := C99_page hb
  have htype : ∀ t : ReportType, '\n' ∉ reportTypeToString t := by intro t; cases t <;> decide
  have herror : ∀ t : ReportError, '\n' ∉ reportErrorToString t ∧ '<' ∉ reportErrorToString t := by
    intro t; cases t <;> decide +kernel
  have hnl : ∀ t : ReportError, ∀ e ∈ (if t = .NONE then none else some (reportErrorToString t)),
      '\n' ∉ e ∧ '<' ∉ e := by
    intro t e he
    split at he
    · cases he
    · cases he; exact herror t
  have hfree : ∀ {s : Str} {q : ParseResult} {fs : List Str}, Result s 200 q → '<' ∉ s →
      List.Forall₂ (fun x e => visitor.visit x.group x.reportPart x.rawString = .ok e) q.groups fs →
      ∀ x ∈ allRows (reportTypeToString q.reportMetadata.type)
        (if q.reportMetadata.error = .NONE then none else some (reportErrorToString q.reportMetadata.error))
        ((q.groups.map (·.rawString)).zip fs), '<' ∉ x.1 ∧ '<' ∉ x.2 := by
    intro s q fs hq hs hfs y hy
    rcases List.mem_cons.mp hy with rfl | hy
    · refine ⟨(by decide : '<' ∉ c!"&nbsp;"), ?_⟩
      rw [List.mem_append]
      rintro (hc | hc)
      · revert hc; decide
      · exact plain_tag (plain_reportTypeToString _ _ hc)
    · rcases List.mem_append.mp hy with hy | hy
      · obtain ⟨e, he, rfl⟩ := List.mem_map.mp hy
        refine ⟨(by decide : '<' ∉ c!"&nbsp;"), ?_⟩
        rw [List.mem_append]
        rintro (hc | hc)
        · revert hc; decide
        · exact (hnl _ e (Option.mem_toList.mp he)).2 hc
      · obtain ⟨x, hx, h1, he⟩ := forall₂_zip hfs y hy
        have hraw : '<' ∉ x.rawString := by
          intro hc
          rcases raw_chars hq x hx _ hc with h2 | ⟨h2, -⟩
          · revert h2; decide
          · exact hs h2
        rw [← h1]
        refine ⟨hraw, fun hc => ?_⟩
        rcases visit_chars hq hx he _ hc with h2 | h2
        · exact plain_tag h2
        · exact hraw h2
  rw [page_rows (htype _) (fun e he => (hnl _ e he).1), page_rows (htype _) (fun e he => (hnl _ e he).1)] at hp
  have hrows := rows_cut (hfree hr hai hes) (hfree hr' hbi hes') (List.append_cancel_left hp)
  have hrows := (List.cons.inj hrows).2
  have hno : ∀ {q : ParseResult} {fs : List Str} {y : Str × Str} {l : List (Str × Str)},
      List.Forall₂ (fun x e => visitor.visit x.group x.reportPart x.rawString = .ok e) q.groups fs →
      y :: l = (q.groups.map (·.rawString)).zip fs → ¬ errorIntro <+: y.2 := by
    intro q fs y l hfs hl
    obtain ⟨x, hx, h1, he⟩ := forall₂_zip hfs y (hl ▸ List.mem_cons_self)
    exact (visit_begins he).2
  have hz : (r.groups.map (·.rawString)).zip es = (r'.groups.map (·.rawString)).zip es' := by
    by_cases h1 : r.reportMetadata.error = .NONE <;> by_cases h2 : r'.reportMetadata.error = .NONE
    · rw [if_pos h1, if_pos h2] at hrows
      exact hrows
    · rw [if_pos h1, if_neg h2] at hrows
      exact absurd (List.prefix_append _ _) (hno hes hrows.symm)
    · rw [if_neg h1, if_pos h2] at hrows
      exact absurd (List.prefix_append _ _) (hno hes' hrows)
    · rw [if_neg h1, if_neg h2] at hrows
      exact (List.cons.inj hrows).2
  obtain rfl := C65_raw_strings_determine a b 200 r r' hr hr' (zip_raws hes hes' hz)
  exact ⟨r, hr, hr'⟩

end Metaf.Props

/-! ### Cases -/

namespace Metaf.Props

open Metaf Metaf.Spec Metaf.Explain

attribute [local instance] ieee

/-- C101. A tag in the text is passed on to the page. -/
theorem C101_violated : ∃ input : Str, ∀ memory, ∃ out, explain memory input = .ok out ∧ c!"<script>" <:+: out :=
  ⟨c!"<script>", fun _ => ⟨page c!"unable to detect"
      (some c!"expected report type or ICAO location at report start")
      [(c!"<script>", c!"Not recognised by parser: <script>")], by kernel_rfl, by decide +kernel⟩⟩

/-- A text without such a character. -/
example : ∃ out, explain [] c!"METAR ZZZZ 041115Z 24005KT & > \"x\"" = .ok out ∧
    '<' ∉ c!"METAR ZZZZ 041115Z 24005KT & > \"x\"" ∧ '<' ∈ out :=
  ⟨match explain [] c!"METAR ZZZZ 041115Z 24005KT & > \"x\"" with
    | .ok out => out
    | .error _ => [], by kernel_rfl, by decide, by decide +kernel⟩

/-- Two texts with the same page: the words after an error are not read. -/
example : explain [] c!"METAR ZZZZ  24005KT" = explain c!"old" c!"METAR ZZZZ 24005KT FEW020" := by kernel_rfl

end Metaf.Props
