import Verif.Props.Text

/-!
Property C65: the raw strings of a result are a report with the same result.
-/

set_option linter.unusedSectionVars false

namespace Metaf.Props

variable [FloatSem]

open Metaf.Parser Metaf.Spec

theorem piece_single {w : Str} {ps : List Str} (h : Pieces w ps) : ∀ t ∈ ps, Pieces t [t] := by
  induction h with
  | nil => intro t ht; cases ht
  | last hu => intro t ht; simp only [List.mem_singleton] at ht; subst ht; exact .last hu
  | @cut c u w ps hu _ ih =>
    intro t ht
    rcases List.mem_cons.mp ht with rfl | ht
    · exact Pieces.cut (w := []) hu .nil
    · exact ih t ht

theorem beforeEnd_all {s : Str} (h : ∀ c ∈ s, c ≠ '=') : beforeEnd s = s := by
  unfold beforeEnd
  rw [List.takeWhile_eq_self_iff]
  intro c hc
  simpa using h c hc

/-- A group of a report is, by itself, a report of one group. -/
theorem tokens_token {s t : Str} (h : t ∈ tokens s) : tokens t = [t] := by
  have ht := tok_of_mem h
  apply tokens_of_groups
  obtain ⟨ws, pss, hl, hp, he⟩ := groups_tokens s
  have hps : Pieces t [t] := by
    rw [he] at h
    obtain ⟨ps, hps, hm⟩ := List.mem_flatten.mp h
    obtain ⟨w, hw⟩ : ∃ w, Pieces w ps := by
      clear he hl h
      induction hp with
      | nil => cases hps
      | @cons a b _ _ hab _ ih =>
        rcases List.mem_cons.mp hps with rfl | hps
        · exact ⟨a, hab⟩
        · exact ih hps
    exact piece_single hw t hm
  refine ⟨[t], [[t]], ?_, .cons hps .nil, by simp⟩
  rw [beforeEnd_all (fun c hc => (ht.2 c hc).2)]
  have := Layout.cons (lead := []) (w := t) (s := []) (ws := []) (by simp) ht.1
    (fun c hc => (ht.2 c hc).1) (by simp) (.nil (by simp))
  simpa using this

theorem tokensAux_space : ∀ (a cur b : Str), (∀ c ∈ a, c ≠ '=') →
    tokensAux cur (a ++ ' ' :: b) = tokensAux cur a ++ tokensAux [] b := by
  intro a
  induction a with
  | nil =>
    intro cur b _
    have : ReportInput.isDelim ' ' = true := by decide
    simp [tokensAux, this]
  | cons c a ih =>
    intro cur b h
    have hc := h c (by simp)
    have ha : ∀ x ∈ a, x ≠ '=' := fun x hx => h x (by simp [hx])
    simp only [List.cons_append, tokensAux, hc, if_false]
    split
    · rw [ih _ _ ha, List.append_assoc]
    · split
      · rw [ih _ _ ha, List.cons_append]
      · rw [ih _ _ ha]

theorem tokens_unwords : ∀ (ws : List Str), (∀ w ∈ ws, ∀ c ∈ w, c ≠ '=') →
    tokens (unwords ws) = ws.flatMap tokens
  | [], _ => rfl
  | [w], _ => by simp [unwords]
  | w :: w' :: ws, h => by
    have ih := tokens_unwords (w' :: ws) (fun x hx => h x (by simp [hx]))
    simp only [unwords, tokens] at ih ⊢
    rw [tokensAux_space _ _ _ (h w (by simp)), ih]
    rfl

theorem mem_unwords : ∀ (ws : List Str) (c : Char), c ∈ unwords ws → c = ' ' ∨ ∃ w ∈ ws, c ∈ w
  | [], c, h => by simp [unwords] at h
  | [w], c, h => Or.inr ⟨w, by simp, h⟩
  | w :: w' :: ws, c, h => by
    simp only [unwords, List.mem_append, List.mem_cons] at h
    rcases h with h | h | h
    · exact Or.inr ⟨w, by simp, h⟩
    · exact Or.inl h
    · rcases mem_unwords (w' :: ws) c h with h | ⟨x, hx, h⟩
      · exact Or.inl h
      · exact Or.inr ⟨x, List.mem_cons_of_mem _ hx, h⟩

/-- C65. The raw strings of the groups of a result, joined by spaces, are a report which, parsed
with the same group limit, has exactly the same result: the same metadata, the same error and the
same groups with the same report parts and raw strings. -/
theorem C65_reparse (report : Str) (limit : Nat) (r : ParseResult) (hr : Result report limit r) :
    Result (unwords (r.groups.map (·.rawString))) limit r := by
  obtain ⟨v, done, gs, h1, h2, h3, h4, h5, h6⟩ := parse_spec report limit
  have hp := hr
  unfold Result at hr
  rw [h6] at hr
  injection hr with hr
  have hwords : r.groups.flatMap (fun gi => words gi.rawString) = done := by
    have ht : texts gs = done := by rw [h4.texts, h1.texts]; simp
    rw [← hr]
    exact ht
  have hj : ∀ gi ∈ r.groups, unwords (words gi.rawString) = gi.rawString := by
    obtain ⟨_, _, _, h, _⟩ := C04_no_text_lost report limit _ r (groups_tokens report) hp
    exact h
  have hmem : ∀ t ∈ done, t ∈ tokens report := fun t ht => h2.subset ht
  have hsub : ∀ gi ∈ r.groups, ∀ w ∈ words gi.rawString, w ∈ tokens report := by
    intro gi hgi w hw
    apply hmem
    rw [← hwords]
    exact List.mem_flatMap.mpr ⟨gi, hgi, hw⟩
  have hraw : ∀ gi ∈ r.groups, tokens gi.rawString = words gi.rawString := by
    intro gi hgi
    conv_lhs => rw [← hj gi hgi]
    rw [tokens_unwords _ (fun w hw c hc => ((tok_of_mem (hsub gi hgi w hw)).2 c hc).2)]
    have : ∀ l : List Str, (∀ w ∈ l, w ∈ tokens report) → l.flatMap tokens = l := by
      intro l
      induction l with
      | nil => intro _; rfl
      | cons a l ih =>
        intro h
        rw [List.flatMap_cons, tokens_token (h a (by simp)),
          ih (fun w hw => h w (by simp [hw]))]
        rfl
    exact this _ (hsub gi hgi)
  have hne : ∀ gi ∈ r.groups, ∀ c ∈ gi.rawString, c ≠ '=' := by
    intro gi hgi c hc
    rw [← hj gi hgi] at hc
    rcases mem_unwords _ _ hc with rfl | ⟨w, hw, hc⟩
    · decide
    · exact ((tok_of_mem (hsub gi hgi w hw)).2 c hc).2
  have htok : tokens (unwords (r.groups.map (·.rawString))) = done := by
    rw [tokens_unwords, List.flatMap_map, ← hwords]
    · generalize hl : r.groups = l at hraw ⊢
      clear hl hwords hj hsub hne
      induction l with
      | nil => rfl
      | cons a l ih =>
        rw [List.flatMap_cons, List.flatMap_cons, hraw a (by simp),
          ih (fun w hw => hraw w (by simp [hw]))]
    · intro w hw c hc
      obtain ⟨gi, hgi, rfl⟩ := List.mem_map.mp hw
      exact hne gi hgi c hc
  unfold Result at hp ⊢
  rw [← hp, parse_eq, parse_eq, htok, h1.fold]
  obtain ⟨us, hus⟩ := h2
  rw [← hus, foldTokens_append, h1.fold]
  rcases h3 with h3 | h3
  · simp only [foldTokens_error h3]
  · have : us = [] := by simpa [h3] using hus
    subst this
    rfl

/-- C65. Hence the joined raw strings determine the result: two reports whose results have the same
raw strings in the same order have the same result. -/
theorem C65_raw_strings_determine (s s' : Str) (limit : Nat) (r r' : ParseResult)
    (hr : Result s limit r) (hr' : Result s' limit r')
    (h : r.groups.map (·.rawString) = r'.groups.map (·.rawString)) : r = r' := by
  have h1 := C65_reparse s limit r hr
  have h2 := C65_reparse s' limit r' hr'
  rw [h] at h1
  unfold Result at h1 h2
  rw [h1] at h2
  injection h2

end Metaf.Props

namespace Metaf.Props

open Metaf.Parser Metaf.Spec

attribute [local instance] exactFloat

/-- A report which stops at an error, with a colour code, blanks and a text after the end. -/
example : (match Parser.parse c!" METAR\tZZZZ BLU+WHT  041115Z  AUTO= TAF" 100 with
      | .ok r => (r.groups.map (·.rawString), r.reportMetadata.error)
      | .error _ => ([], .NONE)) =
    ([c!"METAR", c!"ZZZZ", c!"BLU+"], .EXPECTED_REPORT_TIME) := by decide +kernel

end Metaf.Props
