import Verif.Props.Text

/-!
C05: the size of the result.
-/

set_option linter.unusedSectionVars false

namespace Metaf.Props

variable [FloatSem]

open Metaf.Parser Metaf.Spec

/-- Among entries each of which has a text or stands before one with a text, at least half have a text. -/
theorem half_text (gs : List GroupInfo)
    (h : ∀ l1 l2 a, gs = l1 ++ a :: l2 → a.rawString = [] → ∃ b l3, l2 = b :: l3 ∧ b.rawString ≠ []) :
    gs.length ≤ 2 * (gs.filter (fun gi => gi.rawString ≠ [])).length := by
  match gs, h with
  | [], _ => exact Nat.zero_le _
  | a :: gs, h =>
    have tail : ∀ {gs'} (pre : List GroupInfo), pre ++ gs' = a :: gs →
        ∀ l1 l2 b, gs' = l1 ++ b :: l2 → b.rawString = [] → ∃ c l3, l2 = c :: l3 ∧ c.rawString ≠ [] := by
      intro gs' pre e l1 l2 b e' hb
      exact h (pre ++ l1) l2 b (by rw [← e, e', List.append_assoc]) hb
    by_cases ha : a.rawString = []
    · obtain ⟨b, l3, rfl, hb⟩ := h [] gs a rfl ha
      have := half_text l3 (tail [a, b] rfl)
      simp only [List.filter_cons, ha, hb, ne_eq, not_true_eq_false, not_false_eq_true, decide_false, decide_true,
        Bool.false_eq_true, if_true, if_false, List.length_cons]
      simp only [ne_eq] at this
      omega
    · have := half_text gs (tail [a] rfl)
      simp only [List.filter_cons, ha, ne_eq, not_false_eq_true, decide_true, if_true, List.length_cons]
      simp only [ne_eq] at this
      omega
termination_by gs.length

theorem unwords_length (ws : List Str) : (unwords ws).length ≤ ws.flatten.length + ws.length := by
  induction ws with
  | nil => exact Nat.zero_le _
  | cons w ws ih =>
    cases ws with
    | nil => simp [unwords]
    | cons v ws =>
      simp only [unwords, List.length_append, List.length_cons, List.flatten_cons] at ih ⊢
      omega

theorem texts_length (ws : List Str) (h : ∀ w ∈ ws, w ≠ []) : ws.length ≤ ws.flatten.length := by
  induction ws with
  | nil => exact Nat.zero_le _
  | cons w ws ih =>
    have h1 := List.length_pos_of_ne_nil (h w (List.mem_cons_self ..))
    have h2 := ih fun v hv => h v (List.mem_cons_of_mem _ hv)
    simp only [List.flatten_cons, List.length_append, List.length_cons]
    omega

/-- C05. The size of the result. Whatever the text and the limit, the result has at most twice as many entries
as the limit allows groups (at most two entries if the limit is zero), and at most twice as many as the text has
groups. All its raw strings together have at most twice as many characters as the text. -/
theorem C05_size (report : Str) (limit : Nat) (ts : List Str) (r : ParseResult) (hg : Groups report ts)
    (hr : Result report limit r) :
    r.groups.length ≤ 2 * max 1 limit ∧ r.groups.length ≤ 2 * ts.length ∧
      (r.groups.flatMap (·.rawString)).length ≤ 2 * report.length := by
  obtain ⟨e1, e2⟩ := C05_entries report limit r hr
  obtain ⟨k, h1, -, h3, -⟩ := C04_no_text_lost report limit ts r hg hr
  have hh := half_text r.groups (fun l1 l2 a e ha => by
    obtain ⟨-, b, l3, u, h1, -, h2⟩ := C07_empty_text_partial report limit r hr l1 l2 a e ha
    exact ⟨b, l3, h1, h2⟩)
  have hk : (r.groups.flatMap (fun gi => words gi.rawString)).length ≤ ts.length := by
    rw [h1]
    rw [List.length_take]
    omega
  refine ⟨by omega, by omega, ?_⟩
  have raw : (r.groups.flatMap (·.rawString)).length ≤
      (r.groups.flatMap (fun gi => words gi.rawString)).flatten.length +
        (r.groups.flatMap (fun gi => words gi.rawString)).length := by
    clear hh h1 e1 e2 hk hr
    generalize r.groups = gs at h3 ⊢
    induction gs with
    | nil => exact Nat.zero_le _
    | cons a gs ih =>
      have := unwords_length (words a.rawString)
      rw [h3 a (List.mem_cons_self ..)] at this
      have := ih fun x hx => h3 x (List.mem_cons_of_mem _ hx)
      simp only [List.flatMap_cons, List.length_append, List.flatten_append]
      omega
  have ht := tokens_of_groups hg
  have hne : ∀ w ∈ ts.take k, w ≠ [] := by
    intro w hw
    have := List.mem_of_mem_take hw
    rw [← ht] at this
    exact (tok_of_mem this).1
  have hf : (ts.take k).flatten.length ≤ report.length := by
    have h5 : (ts.take k).flatten.length ≤ ts.flatten.length := by
      conv_rhs => rw [← List.take_append_drop k ts]
      rw [List.flatten_append, List.length_append]
      omega
    have h6 : ts.flatten.length ≤ (beforeEnd report).length := by
      rw [← ht, tokens, tokensAux_flatten]
      simpa using List.length_filter_le ..
    have h7 : (beforeEnd report).length ≤ report.length := by
      exact (List.takeWhile_prefix _).length_le
    omega
  have hl := texts_length _ hne
  rw [h1] at raw
  omega

/-- A report with an entry without text. -/
example : ∃ r, Result c!"METAR ZZZZ 041115Z 00000KT RMK FG FOO" 200 r ∧ r.groups.length ≤ 2 * 200 :=
  let ⟨r, h, _⟩ := C07_violated
  ⟨r, h, (C05_size _ _ _ r (groups_tokens _) h).1⟩

end Metaf.Props
