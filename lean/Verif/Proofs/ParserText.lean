import Verif.Proofs.ParserRun
import Verif.Spec.Words
import Mathlib.Data.List.Chain

/-!
Invariants of the parser about the raw strings of the groups.
-/

set_option linter.unusedSectionVars false

namespace Metaf

variable [FloatSem]

open Spec (words wordsAux)

theorem wordsAux_append (a b : Str) : ∀ cur,
    wordsAux cur (a ++ ' ' :: b) = wordsAux cur a ++ words b := by
  induction a with
  | nil => intro cur; simp [wordsAux, words]
  | cons c a ih =>
    intro cur
    simp only [List.cons_append, wordsAux]
    split
    · rw [ih]; simp
    · exact ih _

theorem words_append (a b : Str) : words (a ++ ' ' :: b) = words a ++ words b := by
  have := wordsAux_append a b []
  simpa [words] using this

theorem wordsAux_nospace (a : Str) : ∀ cur, cur ++ a ≠ [] → (∀ c ∈ a, c ≠ ' ') →
    wordsAux cur a = [cur ++ a] := by
  induction a with
  | nil => intro cur h _; simp at h; simp [wordsAux, h]
  | cons c a ih =>
    intro cur _ hc
    have h1 : c ≠ ' ' := hc c (by simp)
    simp only [wordsAux, h1, if_false]
    rw [ih _ (by simp) (fun x hx => hc x (by simp [hx]))]
    simp

namespace Parser

theorem Tok.words {t : Str} (h : Tok t) : words t = [t] := by
  have hc : ∀ c ∈ t, c ≠ ' ' := by
    intro c hc hb
    have := (h.2 c hc).1
    subst hb
    exact this (by decide)
  have := wordsAux_nospace t [] (by simpa using h.1) hc
  simpa [Spec.words] using this

/-- The words of all groups (latest first) in the order of the report. -/
def texts (gs : List GroupInfo) : List Str := gs.reverse.flatMap (fun gi => words gi.rawString)

theorem texts_cons (gi : GroupInfo) (gs : List GroupInfo) :
    texts (gi :: gs) = texts gs ++ words gi.rawString := by simp [texts]

theorem texts_nil : texts [] = [] := rfl

theorem addGroup_texts (gs : List GroupInfo) (g : Group) (p : ReportPart) (s : Str) :
    texts (addGroupToResult gs g p s) = texts gs ++ words s := by
  cases gs with
  | nil => simp [addGroupToResult, texts_cons]
  | cons last rest =>
    simp only [addGroupToResult]
    split
    · simp [texts_cons, words_append]
    · simp [texts_cons]

theorem Appended.texts {tok : Str} {p : ReportPart} {md : ReportMetadata}
    {gs gs' : List GroupInfo} {b : Bool} (h : Appended tok p md gs gs' b) :
    Parser.texts gs' = Parser.texts gs ++ (if b then words tok else []) := by
  cases h with
  | empty => simp
  | fallback => simp
  | appended => simp [texts_cons, words_append]
  | rejected => simp [texts_cons]
  | unknown => simp [addGroup_texts, texts_cons]
  | reAppended => simp [texts_cons, words_append]
  | reRejected => simp [texts_cons]
  | reInvalidated => simp [texts_cons, show words [] = [] from rfl]

theorem Run.texts {limit : Nat} {done : List Str} {v : Vars} (h : Run limit done v) :
    Parser.texts v.groups = done := by
  induction h with
  | start => rfl
  | step _ _ ht _ hst ih =>
    cases hst with
    | absorbed ha => simp [ha.texts, ih, ht.words]
    | parsed ha => simp [addGroup_texts, ha.texts, ih, ht.words]
    | reparsed ha => simp [addGroup_texts, ha.texts, ih, ht.words]

/-! ### Neighbours -/

/-- What holds for a group `b` and the group `a` before it: they are not both unknown, and if `a`
has no text then `b` is an unknown group with text. -/
def Neighbours (b a : GroupInfo) : Prop :=
  ¬ (b.group.isFallback = true ∧ a.group.isFallback = true) ∧
  (a.rawString = [] → b.group.isFallback = true ∧ b.rawString ≠ [])

theorem addGroup_neighbours {gs : List GroupInfo} {g : Group} {p : ReportPart} {s : Str}
    (hc : gs.IsChain Neighbours) (hh : HeadText gs) :
    (addGroupToResult gs g p s).IsChain Neighbours := by
  cases gs with
  | nil => simp [addGroupToResult]
  | cons last rest =>
    simp only [addGroupToResult]
    split
    · rw [List.isChain_cons] at hc ⊢
      exact ⟨fun y hy => ⟨(hc.1 y hy).1, fun h => ⟨((hc.1 y hy).2 h).1, by simp⟩⟩, hc.2⟩
    · rename_i hn
      rw [List.isChain_cons_cons]
      refine ⟨⟨?_, ?_⟩, hc⟩
      · simpa using hn
      · intro hr; exact absurd hr (hh last (by simp))

theorem Appended.neighbours {tok : Str} {p : ReportPart} {md : ReportMetadata}
    {gs gs' : List GroupInfo} {b : Bool} (h : Appended tok p md gs gs' b) (hi : GroupsInv gs)
    (hc : gs.IsChain Neighbours) (hh : HeadText gs) : gs'.IsChain Neighbours := by
  have key : ∀ {last x : GroupInfo} {rest : List GroupInfo}, (last :: rest).IsChain Neighbours →
      last.group.isFallback = false → x.group.isFallback = false →
      (x :: rest).IsChain Neighbours := by
    intro last x rest h hl hx
    rw [List.isChain_cons] at h ⊢
    refine ⟨fun y hy => ⟨by simp [hx], fun hr => ?_⟩, h.2⟩
    have := ((h.1 y hy).2 hr).1
    simp [hl] at this
  have sameF : ∀ {g g' : Group} {r}, g.Inv → g.append tok p md = .ok (g', r) →
      g'.isFallback = g.isFallback := by
    intro g g' r hg ha
    obtain ⟨q, hq, _, hidx⟩ := Group.append_ok hg tok p md
    rw [ha] at hq
    injection hq with hq
    subst hq
    exact isFallback_of_index hidx
  cases h with
  | empty => exact hc
  | fallback => exact hc
  | @appended last _ _ hf ha => exact key hc hf (by rw [sameF (hi last (by simp)) ha, hf])
  | @rejected last _ _ hf ha => exact key hc hf (by rw [sameF (hi last (by simp)) ha, hf])
  | @unknown last rest _ _ hf =>
    refine addGroup_neighbours (List.isChain_cons.mp hc).2 ?_
    intro y hy hr
    have := ((List.isChain_cons.mp hc).1 y hy).2 hr
    simp [hf] at this
  | @reAppended last _ g rp g2 hf ha hrp hfb ha2 =>
    obtain ⟨rp', h1, h2⟩ := GroupParser.reparse_ok last.rawString last.reportPart md g
    rw [hrp] at h1; injection h1 with h1; subst h1
    exact key hc hf (by rw [sameF h2 ha2, hfb])
  | @reRejected last _ g rp g2 hf ha hrp hfb ha2 =>
    obtain ⟨rp', h1, h2⟩ := GroupParser.reparse_ok last.rawString last.reportPart md g
    rw [hrp] at h1; injection h1 with h1; subst h1
    exact key hc hf (by rw [sameF h2 ha2, hfb])
  | @reInvalidated last _ g rp g2 hf ha hrp hfb ha2 =>
    obtain ⟨rp', h1, h2⟩ := GroupParser.reparse_ok last.rawString last.reportPart md g
    rw [hrp] at h1; injection h1 with h1; subst h1
    rw [List.isChain_cons_cons]
    have hg2 : g2.isFallback = false := by rw [sameF h2 ha2, hfb]
    refine ⟨⟨by simp [hg2], fun _ => ⟨rfl, hh last (by simp)⟩⟩, ?_⟩
    exact key hc hf hg2

theorem Run.neighbours {limit : Nat} {done : List Str} {v : Vars} (h : Run limit done v) :
    v.groups.IsChain Neighbours := by
  induction h with
  | start => simp
  | step hr _ _ _ hst ih =>
    cases hst with
    | absorbed ha => exact ha.neighbours hr.inv ih hr.headText
    | parsed ha =>
      exact addGroup_neighbours (ha.neighbours hr.inv ih hr.headText) (ha.headText hr.headText)
    | reparsed ha =>
      exact addGroup_neighbours (ha.neighbours hr.inv ih hr.headText) (ha.headText hr.headText)

end Parser

end Metaf
