import Verif.Spec.Tokens
import Verif.Model.Parser
import Mathlib.Data.List.TakeWhile

/-!
The tokenizer of the model yields exactly the groups of the report.
-/

namespace Metaf

open Spec

/-- The word collected so far, if any. -/
def emit (cur : Str) : List Str := if cur = [] then [] else [cur]

/-- The groups of a text when `cur` has already been collected. -/
def tokensAux : Str → Str → List Str
  | cur, [] => emit cur
  | cur, c :: cs =>
    if ReportInput.isDelim c then emit cur ++ tokensAux [] cs
    else if c = '=' then emit cur
    else if cur ≠ [] ∧ c = '+' then (cur ++ [c]) :: tokensAux [] cs
    else tokensAux (cur ++ [c]) cs

/-- The groups of a report. -/
def tokens (s : Str) : List Str := tokensAux [] s

theorem isDelim_iff {c : Char} : ReportInput.isDelim c = true ↔ Blank c := by
  simp [ReportInput.isDelim, Blank]

theorem isDelim_false_iff {c : Char} : ReportInput.isDelim c = false ↔ ¬ Blank c := by
  rw [← isDelim_iff]; simp

theorem isDelim_eq : ReportInput.isDelim '=' = false := by decide
theorem isDelim_plus : ReportInput.isDelim '+' = false := by decide

/-! ### The tokenizer and `tokensAux` -/

theorem scanGroup_spec : ∀ (s cur : Str),
    tokensAux cur s = emit (cur ++ (ReportInput.scanGroup s cur.length).1) ++
      (if (ReportInput.scanGroup s cur.length).2.2 then []
       else tokensAux [] (ReportInput.scanGroup s cur.length).2.1) := by
  intro s
  induction s with
  | nil => intro cur; simp [tokensAux, ReportInput.scanGroup, emit]
  | cons c cs ih =>
    intro cur
    by_cases hd : ReportInput.isDelim c = true
    · simp [tokensAux, ReportInput.scanGroup, hd, emit]
    · by_cases he : c = '='
      · subst he; simp [tokensAux, ReportInput.scanGroup, isDelim_eq]
      · by_cases hp : cur ≠ [] ∧ c = '+'
        · have h1 : cur.length ≠ 0 := by simpa using hp.1
          have hc := hp.2
          subst hc
          simp [tokensAux, ReportInput.scanGroup, hp.1, isDelim_plus, emit]
        · have h1 : ¬ (cur.length ≠ 0 ∧ c = '+') := by simpa using hp
          have ih' := ih (cur ++ [c])
          simp only [List.length_append, List.length_cons, List.length_nil, Nat.zero_add] at ih'
          simp only [tokensAux, ReportInput.scanGroup, hd, he, hp, h1, if_false, ih',
            Bool.false_eq_true, List.append_assoc, List.singleton_append]

theorem scanGroup_length (s : Str) : ∀ n,
    (ReportInput.scanGroup s n).1.length + (ReportInput.scanGroup s n).2.1.length = s.length := by
  induction s with
  | nil => intro n; simp [ReportInput.scanGroup]
  | cons c cs ih =>
    intro n
    have := ih (n + 1)
    simp only [ReportInput.scanGroup]
    split
    · simp
    · split
      · simp
      · split
        · simp; omega
        · simp; omega

theorem scanGroup_nil_finished {c : Char} {cs : Str} (h : ReportInput.isDelim c = false)
    (h1 : (ReportInput.scanGroup (c :: cs) 0).1 = []) :
    (ReportInput.scanGroup (c :: cs) 0).2.2 = true := by
  simp only [ReportInput.scanGroup, h, Bool.false_eq_true, if_false] at h1 ⊢
  split
  · rfl
  · rename_i h2
    simp [h2] at h1

theorem tokensAux_dropWhile (s : Str) :
    tokensAux [] s = tokensAux [] (s.dropWhile ReportInput.isDelim) := by
  induction s with
  | nil => rfl
  | cons c cs ih =>
    by_cases hd : ReportInput.isDelim c = true
    · simp [List.dropWhile, hd, tokensAux, emit, ih]
    · simp [List.dropWhile, hd]

/-- The groups still to be delivered. -/
def ReportInput.tokens (i : ReportInput) : List Str :=
  if i.finished then [] else tokensAux [] i.rest

/-- One call of `getNextGroup` delivers the next group, or the empty string when there is none. -/
theorem getNextGroup_spec (i : ReportInput) :
    (i.tokens = [] ∧ i.getNextGroup.1 = []) ∨
    (∃ t ts, t ≠ [] ∧ i.tokens = t :: ts ∧ i.getNextGroup.1 = t ∧ i.getNextGroup.2.tokens = ts ∧
      i.getNextGroup.2.rest.length + t.length ≤ i.rest.length) := by
  obtain ⟨s, fin⟩ := i
  cases fin with
  | true => left; simp [ReportInput.tokens, ReportInput.getNextGroup]
  | false =>
    simp only [ReportInput.tokens, ReportInput.getNextGroup, Bool.false_eq_true, if_false]
    rw [tokensAux_dropWhile]
    have hlen : (s.dropWhile ReportInput.isDelim).length ≤ s.length :=
      (List.dropWhile_sublist _).length_le
    cases hs : s.dropWhile ReportInput.isDelim with
    | nil => left; simp [tokensAux, emit]
    | cons c cs =>
      rw [hs] at hlen
      have hc : ReportInput.isDelim c = false := by
        have := List.head?_dropWhile_not ReportInput.isDelim s
        rw [hs] at this
        simpa using this
      have hsp := scanGroup_spec (c :: cs) []
      have hl := scanGroup_length (c :: cs) 0
      simp only [List.length_nil, List.nil_append] at hsp
      by_cases hn : (ReportInput.scanGroup (c :: cs) 0).1 = []
      · left
        have hfin := scanGroup_nil_finished hc hn
        rw [hsp, hn, hfin]
        simp [emit]
      · right
        refine ⟨_, _, hn, ?_, rfl, rfl, ?_⟩
        · rw [hsp]
          simp [emit, hn]
        · simp only [List.length_cons] at hl hlen ⊢
          omega

theorem tokensAux_ne_nil : ∀ (s cur : Str), ∀ t ∈ tokensAux cur s, t ≠ [] := by
  have he : ∀ cur : Str, ∀ t ∈ emit cur, t ≠ [] := by
    intro cur t ht
    unfold emit at ht
    split at ht
    · simp at ht
    · simp only [List.mem_singleton] at ht; subst ht; assumption
  intro s
  induction s with
  | nil => intro cur t ht; exact he cur t ht
  | cons c cs ih =>
    intro cur t ht
    simp only [tokensAux] at ht
    split at ht
    · rcases List.mem_append.mp ht with h | h
      · exact he _ _ h
      · exact ih _ _ h
    · split at ht
      · exact he _ _ ht
      · split at ht
        · rcases List.mem_cons.mp ht with h | h
          · subst h; simp
          · exact ih _ _ h
        · exact ih _ _ ht

theorem tokens_ne_nil {s t : Str} (h : t ∈ tokens s) : t ≠ [] := tokensAux_ne_nil _ _ _ h

/-- No group contains a blank or the report end indicator. -/
theorem tokensAux_chars : ∀ (s cur : Str), (∀ c ∈ cur, ¬ Blank c ∧ c ≠ '=') →
    ∀ t ∈ tokensAux cur s, ∀ c ∈ t, ¬ Blank c ∧ c ≠ '=' := by
  have he : ∀ cur : Str, (∀ c ∈ cur, ¬ Blank c ∧ c ≠ '=') →
      ∀ t ∈ emit cur, ∀ c ∈ t, ¬ Blank c ∧ c ≠ '=' := by
    intro cur hcur t ht
    unfold emit at ht
    split at ht
    · simp at ht
    · simp only [List.mem_singleton] at ht; subst ht; assumption
  intro s
  induction s with
  | nil => intro cur hcur t ht; exact he cur hcur t ht
  | cons c cs ih =>
    intro cur hcur t ht
    simp only [tokensAux] at ht
    split at ht
    · rcases List.mem_append.mp ht with h | h
      · exact he _ hcur _ h
      · exact ih [] (by simp) _ h
    · rename_i hd
      split at ht
      · exact he _ hcur _ ht
      · rename_i heq
        have hcur' : ∀ x ∈ cur ++ [c], ¬ Blank x ∧ x ≠ '=' := by
          intro x hx
          rcases List.mem_append.mp hx with h | h
          · exact hcur x h
          · simp only [List.mem_singleton] at h
            subst h
            exact ⟨by rw [← isDelim_iff]; exact hd, heq⟩
        split at ht
        · rcases List.mem_cons.mp ht with h | h
          · subst h; exact hcur'
          · exact ih [] (by simp) _ h
        · exact ih _ hcur' _ ht

theorem tokens_chars {s t : Str} (h : t ∈ tokens s) : ∀ c ∈ t, ¬ Blank c ∧ c ≠ '=' :=
  tokensAux_chars s [] (by simp) t h

/-- The groups hold exactly the characters of the report before its end that are not blank. -/
theorem tokensAux_flatten : ∀ (s cur : Str),
    (tokensAux cur s).flatten = cur ++ (beforeEnd s).filter (fun c => ¬ Blank c) := by
  have he : ∀ cur : Str, (emit cur).flatten = cur := by
    intro cur; unfold emit; split
    · simp_all
    · simp
  intro s
  induction s with
  | nil => intro cur; simp [tokensAux, he, beforeEnd]
  | cons c cs ih =>
    intro cur
    simp only [tokensAux]
    split
    · rename_i hd
      have hne : c ≠ '=' := by rintro rfl; rw [isDelim_eq] at hd; cases hd
      have hb := isDelim_iff.mp hd
      simp [he, ih, beforeEnd, hne, hb]
    · rename_i hd
      have hb : ¬ Blank c := by rw [← isDelim_iff]; exact hd
      split
      · rename_i heq; simp [he, beforeEnd, heq]
      · rename_i heq
        split <;> simp [ih, beforeEnd, heq, hb]

/-! ### Agreement with the specification -/

theorem tokensAux_beforeEnd : ∀ (s cur : Str), tokensAux cur (beforeEnd s) = tokensAux cur s := by
  intro s
  induction s with
  | nil => intro cur; rfl
  | cons c cs ih =>
    intro cur
    by_cases h : c = '='
    · subst h; simp [beforeEnd, tokensAux, isDelim_eq]
    · have hb : beforeEnd (c :: cs) = c :: beforeEnd cs := by simp [beforeEnd, h]
      rw [hb]
      simp only [tokensAux, ih]

theorem beforeEnd_no_eq (s : Str) : ∀ c ∈ beforeEnd s, c ≠ '=' := by
  intro c hc
  have := List.mem_takeWhile_imp hc
  simpa using this

theorem tokensAux_run {u : Str} (h1 : ∀ c ∈ u, ¬ Blank c ∧ c ≠ '=') (h2 : '+' ∉ u) (s : Str) :
    ∀ cur, cur ≠ [] → tokensAux cur (u ++ s) = tokensAux (cur ++ u) s := by
  induction u with
  | nil => intro cur _; simp
  | cons c u ih =>
    intro cur hcur
    have hc := h1 c (by simp)
    have hp : c ≠ '+' := by rintro rfl; simp at h2
    have hd : ReportInput.isDelim c = false := isDelim_false_iff.mpr hc.1
    rw [List.cons_append, tokensAux]
    simp only [hd, hc.2, hp, and_false, if_false, Bool.false_eq_true]
    rw [ih (fun x hx => h1 x (by simp [hx])) (fun hx => h2 (by simp [hx])) _ (by simp)]
    simp

theorem tokensAux_first {c : Char} (h : ¬ Blank c ∧ c ≠ '=') (s : Str) :
    tokensAux [] (c :: s) = tokensAux [c] s := by
  have hd : ReportInput.isDelim c = false := isDelim_false_iff.mpr h.1
  simp [tokensAux, hd, h.2]

theorem tokensAux_stop {cur s : Str} (hcur : cur ≠ []) (h : ∀ c ∈ s.head?, Blank c) :
    tokensAux cur s = cur :: tokensAux [] s := by
  cases s with
  | nil => simp [tokensAux, emit, hcur]
  | cons c s =>
    have := isDelim_iff.mpr (h c (by simp))
    simp [tokensAux, emit, hcur, this]

theorem tokensAux_pieces {w : Str} {ps : List Str} (hp : Pieces w ps)
    (h1 : ∀ c ∈ w, ¬ Blank c ∧ c ≠ '=') {s : Str} (hs : ∀ c ∈ s.head?, Blank c) :
    tokensAux [] (w ++ s) = ps ++ tokensAux [] s := by
  induction hp with
  | nil => simp
  | @last c u hu =>
    rw [List.cons_append, tokensAux_first (h1 c (by simp)),
      tokensAux_run (fun x hx => h1 x (by simp [hx])) hu _ _ (by simp),
      tokensAux_stop (by simp) hs]
    simp
  | @cut c u w ps hu hw ih =>
    rw [List.cons_append, tokensAux_first (h1 c (by simp)), List.append_assoc,
      tokensAux_run (fun x hx => h1 x (by simp [hx])) hu _ _ (by simp)]
    have h2 : tokensAux ([c] ++ u) ('+' :: (w ++ s)) =
        (([c] ++ u) ++ ['+']) :: tokensAux [] (w ++ s) := by
      simp [tokensAux, isDelim_plus]
    rw [List.cons_append (a := '+'), h2, ih (fun x hx => h1 x (by simp [hx]))]
    simp

theorem tokensAux_blanks {b : Str} (h : ∀ c ∈ b, Blank c) (s : Str) :
    tokensAux [] (b ++ s) = tokensAux [] s := by
  induction b with
  | nil => rfl
  | cons c b ih =>
    have := isDelim_iff.mpr (h c (by simp))
    simp only [List.cons_append, tokensAux, this, if_true, emit, List.nil_append]
    exact ih (fun x hx => h x (by simp [hx]))

theorem tokensAux_layout {ws : List Str} {s : Str} (h : Layout ws s) :
    ∀ {pss}, (∀ c ∈ s, c ≠ '=') → List.Forall₂ Pieces ws pss → tokensAux [] s = pss.flatten := by
  induction h with
  | @nil s hb =>
    intro pss _ hp
    cases hp
    have := tokensAux_blanks hb []
    simp only [List.append_nil] at this
    rw [this]; rfl
  | @cons lead w s ws hl hw hnb hs hlay ih =>
    intro pss heq hp
    cases hp with
    | cons hp1 hp2 =>
      rw [tokensAux_blanks hl, tokensAux_pieces hp1
        (fun c hc => ⟨hnb c hc, heq c (by simp [hc])⟩) hs,
        ih (fun c hc => heq c (by simp [hc])) hp2]
      simp

/-- The groups required by the specification are those of the model. -/
theorem tokens_of_groups {s : Str} {ts : List Str} (h : Groups s ts) : tokens s = ts := by
  obtain ⟨ws, pss, hl, hp, rfl⟩ := h
  rw [tokens, ← tokensAux_beforeEnd]
  exact tokensAux_layout hl (beforeEnd_no_eq s) hp

theorem exists_pieces : ∀ (n : Nat) (w : Str), w.length ≤ n → ∃ ps, Pieces w ps := by
  intro n
  induction n with
  | zero =>
    intro w hw
    have : w = [] := List.length_eq_zero_iff.mp (Nat.le_zero.mp hw)
    subst this; exact ⟨_, .nil⟩
  | succ n ih =>
    intro w hw
    cases w with
    | nil => exact ⟨_, .nil⟩
    | cons c w =>
      by_cases hp : '+' ∈ w
      · obtain ⟨u, v, rfl, hu⟩ := List.eq_append_cons_of_mem hp
        obtain ⟨ps, hps⟩ := ih v (by simp at hw; omega)
        exact ⟨_, .cut hu hps⟩
      · exact ⟨_, .last hp⟩

theorem exists_layout : ∀ (n : Nat) (s : Str), s.length ≤ n → ∃ ws, Layout ws s := by
  intro n
  induction n with
  | zero =>
    intro s hs
    have : s = [] := List.length_eq_zero_iff.mp (Nat.le_zero.mp hs)
    subst this; exact ⟨_, .nil (by simp)⟩
  | succ n ih =>
    intro s hs
    have h1 : s = s.takeWhile ReportInput.isDelim ++ s.dropWhile ReportInput.isDelim := by simp
    have hlead : ∀ c ∈ s.takeWhile ReportInput.isDelim, Blank c := fun c hc =>
      isDelim_iff.mp (List.mem_takeWhile_imp hc)
    cases hr : s.dropWhile ReportInput.isDelim with
    | nil =>
      rw [hr, List.append_nil] at h1
      rw [h1]; exact ⟨[], .nil hlead⟩
    | cons c cs =>
      have hc : ReportInput.isDelim c = false := by
        have := List.head?_dropWhile_not ReportInput.isDelim s
        rw [hr] at this
        simpa using this
      have h2 : cs = cs.takeWhile (fun c => !ReportInput.isDelim c) ++
        cs.dropWhile (fun c => !ReportInput.isDelim c) := by simp
      have hlen : (cs.dropWhile (fun c => !ReportInput.isDelim c)).length ≤ n := by
        have a := (List.dropWhile_sublist (l := cs) (fun c => !ReportInput.isDelim c)).length_le
        have b := (List.dropWhile_sublist (l := s) ReportInput.isDelim).length_le
        rw [hr] at b; simp at b; omega
      obtain ⟨ws, hws⟩ := ih _ hlen
      refine ⟨(c :: cs.takeWhile (fun c => !ReportInput.isDelim c)) :: ws, ?_⟩
      rw [h1, hr]
      rw [show c :: cs = (c :: cs.takeWhile (fun c => !ReportInput.isDelim c)) ++
        cs.dropWhile (fun c => !ReportInput.isDelim c) by simp]
      refine .cons hlead (by simp) ?_ ?_ hws
      · intro x hx
        rcases List.mem_cons.mp hx with rfl | hx
        · exact isDelim_false_iff.mp hc
        · have := List.mem_takeWhile_imp hx
          exact isDelim_false_iff.mp (by simpa using this)
      · intro x hx
        have := List.head?_dropWhile_not (fun c => !ReportInput.isDelim c) cs
        rw [Option.mem_def] at hx
        rw [hx] at this
        exact isDelim_iff.mp (by simpa using this)

/-- Every report has a division into groups. -/
theorem groups_tokens (s : Str) : Groups s (tokens s) := by
  obtain ⟨ws, hws⟩ := exists_layout _ (beforeEnd s) (Nat.le_refl _)
  have : ∀ ws : List Str, ∃ pss, List.Forall₂ Pieces ws pss := by
    intro ws
    induction ws with
    | nil => exact ⟨[], .nil⟩
    | cons w ws ih =>
      obtain ⟨ps, hps⟩ := exists_pieces _ w (Nat.le_refl _)
      obtain ⟨pss, hpss⟩ := ih
      exact ⟨ps :: pss, .cons hps hpss⟩
  obtain ⟨pss, hpss⟩ := this ws
  have hg : Groups s pss.flatten := ⟨ws, pss, hws, hpss, rfl⟩
  rw [tokens_of_groups hg]; exact hg

end Metaf
