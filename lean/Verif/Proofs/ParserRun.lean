import Verif.Proofs.ParserStep
import Verif.Proofs.Inert

/-!
Reachable states of the parser and the result computed from them.
-/

set_option linter.unusedSectionVars false

namespace Metaf

variable [FloatSem]

namespace Parser

/-- `Run limit done v`: having processed the groups `done` the parser is in the state `v`. -/
inductive Run (limit : Nat) : List Str → Vars → Prop
  | start : Run limit [] {}
  | step {done tok v v'} : Run limit done v → v.status.isError = false → Tok tok →
      stepTok limit tok v = .ok v' → Step limit tok v v' → Run limit (done ++ [tok]) v'

theorem Run.inv {limit : Nat} {done : List Str} {v : Vars} (h : Run limit done v) :
    GroupsInv v.groups := by
  induction h with
  | start => intro x hx; simp at hx
  | step _ he _ hs _ ih =>
    obtain ⟨v'', h'', _, hi⟩ := stepTok_spec (limit := limit) ih he
    rw [hs] at h''
    injection h'' with h''
    subst h''
    exact hi

theorem Run.tok {limit : Nat} {done : List Str} {v : Vars} (h : Run limit done v) :
    ∀ t ∈ done, Tok t := by
  induction h with
  | start => intro x hx; simp at hx
  | step _ _ ht _ _ ih =>
    intro x hx
    rcases List.mem_append.mp hx with hx | hx
    · exact ih x hx
    · simp only [List.mem_singleton] at hx; subst hx; exact ht

/-- The state is the one the parser computes. -/
theorem Run.fold {limit : Nat} {done : List Str} {v : Vars} (h : Run limit done v) :
    foldTokens limit done {} = .ok v := by
  induction h with
  | start => rfl
  | step _ he _ hs _ ih => rw [foldTokens_append, ih]; simp [foldTokens, he, hs]

/-- From a reachable state further groups lead to a reachable state. -/
theorem Run.extend {limit : Nat} : ∀ (ts done0 : List Str) (v0 : Vars), (∀ t ∈ ts, Tok t) →
    Run limit done0 v0 →
    ∃ v done, foldTokens limit ts v0 = .ok v ∧ Run limit (done0 ++ done) v ∧
      done <+: ts ∧ (v.status.isError = true ∨ done = ts) := by
  intro ts
  induction ts with
  | nil => intro done0 v0 _ hR; exact ⟨v0, [], rfl, by simpa using hR, by simp, Or.inr rfl⟩
  | cons t ts ih =>
    intro done0 v0 hts hR
    simp only [foldTokens]
    cases he : v0.status.isError with
    | true => exact ⟨v0, [], by simp, by simpa using hR, by simp, Or.inl he⟩
    | false =>
      obtain ⟨v1, h1, hs, _⟩ := stepTok_spec (limit := limit) (tok := t) hR.inv he
      simp only [Bool.false_eq_true, if_false, h1]
      obtain ⟨v, done, hf, hR', hpre, hend⟩ := ih (done0 ++ [t]) v1
        (fun x hx => hts x (by simp [hx])) (.step hR he (hts t (by simp)) h1 hs)
      refine ⟨v, t :: done, hf, by simpa using hR', ?_, ?_⟩
      · exact (List.cons_prefix_cons).mpr ⟨rfl, hpre⟩
      · rcases hend with h | h
        · exact Or.inl h
        · right; rw [h]

theorem exists_run (limit : Nat) (s : Str) :
    ∃ v done, foldTokens limit (tokens s) {} = .ok v ∧ Run limit done v ∧ done <+: tokens s ∧
      (v.status.isError = true ∨ done = tokens s) := by
  obtain ⟨v, done, h1, h2, h3, h4⟩ := Run.extend (limit := limit) (tokens s) [] {}
    (fun t ht => tok_of_mem ht) .start
  exact ⟨v, done, h1, by simpa using h2, h3, h4⟩

/-- The number of groups processed is determined by the state reached. -/
theorem Run.unique {limit : Nat} {d1 d2 : List Str} {v1 v2 : Vars} (h1 : Run limit d1 v1)
    (h2 : Run limit d2 v2) (hp : d1 <+: d2) (he : v1.status.isError = true) : d1 = d2 := by
  induction h2 with
  | start => simpa using hp
  | @step done tok v v' hr hne ht hs hst ih =>
    rcases List.prefix_concat_iff.mp hp with hp | hp
    · exact hp
    · have hf := h1.fold
      have hf2 := hr.fold
      obtain ⟨us, hus⟩ := hp
      rw [← hus, foldTokens_append, hf] at hf2
      simp only [foldTokens_error he] at hf2
      injection hf2 with hf2
      subst hf2
      simp [he] at hne

/-! ### The end of the report -/

/-- The metadata of the result. -/
def finalMd (v : Vars) : ReportMetadata :=
  { v.md with type := v.status.finalTransition.reportType,
              error := v.status.finalTransition.reportError }

/-- The text of the last group is not empty. -/
def HeadText (gs : List GroupInfo) : Prop := ∀ gi ∈ gs.head?, gi.rawString ≠ []

theorem addGroup_headText {gs : List GroupInfo} {g : Group} {p : ReportPart} {s : Str}
    (hs : s ≠ []) : HeadText (addGroupToResult gs g p s) := by
  cases gs with
  | nil => intro x hx; simp [addGroupToResult] at hx; subst hx; exact hs
  | cons last rest =>
    simp only [addGroupToResult]
    split <;> (intro x hx; simp at hx; subst hx; simp [hs])

theorem Appended.headText {tok : Str} {p : ReportPart} {md : ReportMetadata}
    {gs gs' : List GroupInfo} {b : Bool} (h : Appended tok p md gs gs' b) (hh : HeadText gs) :
    HeadText gs' := by
  cases h with
  | empty => exact hh
  | fallback => exact hh
  | appended => intro x hx; simp at hx; subst hx; simp
  | @rejected last _ _ => intro x hx; simp at hx; subst hx; exact hh last (by simp)
  | @unknown last _ _ _ => exact addGroup_headText (hh last (by simp))
  | reAppended => intro x hx; simp at hx; subst hx; simp
  | @reRejected last _ _ _ _ => intro x hx; simp at hx; subst hx; exact hh last (by simp)
  | @reInvalidated last _ _ _ _ => intro x hx; simp at hx; subst hx; exact hh last (by simp)

theorem Run.headText {limit : Nat} {done : List Str} {v : Vars} (h : Run limit done v) :
    HeadText v.groups := by
  induction h with
  | start => intro x hx; simp at hx
  | @step _ tok v v' _ _ ht _ hst ih =>
    cases hst with
    | absorbed ha => exact ha.headText ih
    | parsed => exact addGroup_headText ht.1
    | reparsed => exact addGroup_headText ht.1

/-- A keyword or the empty text is not absorbed. -/
theorem Appended.inert {tok : Str} {p : ReportPart} {md : ReportMetadata}
    {gs gs' : List GroupInfo} {b : Bool} (h : Appended tok p md gs gs' b)
    (ht : tok ∈ inertTexts) : b = false := by
  cases h with
  | empty | fallback | rejected | unknown | reRejected | reInvalidated => rfl
  | appended hf ha => exact absurd rfl (Group.append_inert hf ht _ _ ha)
  | reAppended _ _ _ hf ha => exact absurd rfl (Group.append_inert hf ht _ _ ha)

theorem addGroup_ne_nil {gs : List GroupInfo} {g : Group} {p : ReportPart} {s : Str} :
    addGroupToResult gs g p s ≠ [] := by
  cases gs with
  | nil => simp [addGroupToResult]
  | cons last rest => simp only [addGroupToResult]; split <;> simp

theorem Appended.ne_nil {tok : Str} {p : ReportPart} {md : ReportMetadata}
    {gs gs' : List GroupInfo} {b : Bool} (h : Appended tok p md gs gs' b) (hn : gs ≠ []) :
    gs' ≠ [] := by
  cases h with
  | empty => exact hn
  | unknown => exact addGroup_ne_nil
  | fallback | appended | rejected | reAppended | reRejected | reInvalidated => simp

/-- The end of parsing: the last group is told that nothing follows. -/
theorem finish_spec {limit : Nat} {done : List Str} {v : Vars} (h : Run limit done v) :
    ∃ gs, finish v = .ok { reportMetadata := finalMd v, groups := gs.reverse } ∧
      Appended [] v.status.getReportPart v.md v.groups gs false ∧ GroupsInv gs := by
  obtain ⟨gs, b, ha, happ, hinv⟩ := append_cases h.inv [] v.status.getReportPart v.md
  have hb : b = false := happ.inert (by decide)
  subst hb
  have hh := happ.headText h.headText
  refine ⟨gs, ?_, happ, hinv⟩
  cases hg : v.groups with
  | nil =>
    rw [hg] at happ
    cases happ
    simp [finish, hg, finalMd]
  | cons last rest =>
    have hne : gs ≠ [] := happ.ne_nil (by simp [hg])
    rw [hg] at ha
    simp only [finish, hg, ha]
    cases gs with
    | nil => exact absurd rfl hne
    | cons g0 gs0 =>
      have : g0.rawString.isEmpty = false := by
        have := hh g0 (by simp)
        cases hr : g0.rawString <;> simp_all
      simp [this, finalMd]

/-- The result of parsing in terms of the reachable state. -/
theorem parse_spec (report : Str) (limit : Nat) :
    ∃ v done gs, Run limit done v ∧ done <+: tokens report ∧
      (v.status.isError = true ∨ done = tokens report) ∧
      Appended [] v.status.getReportPart v.md v.groups gs false ∧ GroupsInv gs ∧
      parse report limit = .ok { reportMetadata := finalMd v, groups := gs.reverse } := by
  obtain ⟨v, done, h1, h2, h3, h4⟩ := exists_run limit report
  obtain ⟨gs, h5, h6, h7⟩ := finish_spec h2
  refine ⟨v, done, gs, h2, h3, h4, h6, h7, ?_⟩
  rw [parse_eq, h1]
  exact h5

end Parser

end Metaf
