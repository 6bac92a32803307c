import Verif.Proofs.ParserText

/-!
Keywords inside the text of a group.
-/

set_option linter.unusedSectionVars false

namespace Metaf

variable [FloatSem]

open Spec

namespace Parser

/-- A group was extended only by words that are no keywords. -/
def TailOk (gi : GroupInfo) : Prop :=
  gi.group.isFallback = false → ∀ w ∈ (words gi.rawString).tail, w ∉ inertTexts

def EntriesTail (gs : List GroupInfo) : Prop := ∀ gi ∈ gs, TailOk gi

theorem mem_tail_append {α : Type} {a b : List α} {x : α} (h : x ∈ (a ++ b).tail) :
    x ∈ a.tail ∨ x ∈ b := by
  cases a with
  | nil => exact Or.inr (List.mem_of_mem_tail h)
  | cons y a => simpa using h

theorem entriesTail_addGroup {gs : List GroupInfo} {g : Group} {p : ReportPart} {s : Str}
    (h : EntriesTail gs) (hg : TailOk { group := g, reportPart := p, rawString := s }) :
    EntriesTail (addGroupToResult gs g p s) := by
  cases gs with
  | nil => intro x hx; simp only [addGroupToResult, List.mem_singleton] at hx; subst hx; exact hg
  | cons last rest =>
    simp only [addGroupToResult]
    split
    · rename_i hb
      simp only [Bool.and_eq_true] at hb
      intro x hx
      rcases List.mem_cons.mp hx with rfl | hx
      · intro hf; simp only at hf; rw [hb.2] at hf; simp at hf
      · exact h x (by simp [hx])
    · intro x hx
      rcases List.mem_cons.mp hx with rfl | hx
      · exact hg
      · exact h x hx

theorem Appended.tails {tok : Str} {p : ReportPart} {md : ReportMetadata}
    {gs gs' : List GroupInfo} {b : Bool} (h : Appended tok p md gs gs' b) (ht : Tok tok ∨ tok = [])
    (hm : EntriesTail gs) : EntriesTail gs' := by
  have keep : ∀ {x last : GroupInfo} {rest : List GroupInfo}, EntriesTail (last :: rest) →
      TailOk x → EntriesTail (x :: rest) := by
    intro x last rest hl hx y hy
    rcases List.mem_cons.mp hy with rfl | hy
    · exact hx
    · exact hl y (by simp [hy])
  have hw : ∀ w ∈ words tok, w = tok := by
    rcases ht with ht | rfl
    · rw [ht.words]; simp
    · simp [words, wordsAux]
  have ext : ∀ {s : Str}, (∀ w ∈ (words s).tail, w ∉ inertTexts) → tok ∉ inertTexts →
      ∀ w ∈ (words (s ++ c!" " ++ tok)).tail, w ∉ inertTexts := by
    intro s hs hn w hwm
    have : s ++ c!" " ++ tok = s ++ ' ' :: tok := by simp
    rw [this, words_append] at hwm
    rcases mem_tail_append hwm with h | h
    · exact hs w h
    · rw [hw w h]; exact hn
  have same : ∀ {g g' : Group} {r : AppendResult}, g.isFallback = false → tok ∈ inertTexts →
      g.append tok p md = .ok (g', r) → r ≠ .APPENDED := fun hf hi ha =>
    Group.append_inert hf hi p md ha
  cases h with
  | empty => exact hm
  | fallback => exact hm
  | @appended last rest g hf ha =>
    exact keep hm (fun _ => ext (hm last (by simp) hf) (fun hi => same hf hi ha rfl))
  | @rejected last rest g hf ha => exact keep hm (fun _ => hm last (by simp) hf)
  | @unknown last rest g rp hf ha hr hfb =>
    refine entriesTail_addGroup (fun x hx => hm x (by simp [hx])) ?_
    intro hf'
    simp only at hf'
    rw [hfb] at hf'
    simp at hf'
  | @reAppended last rest g rp g2 hf ha hr hfb ha2 =>
    exact keep hm (fun _ => ext (hm last (by simp) hf) (fun hi => same hfb hi ha2 rfl))
  | @reRejected last rest g rp g2 hf ha hr hfb ha2 =>
    exact keep hm (fun _ => hm last (by simp) hf)
  | @reInvalidated last rest g rp g2 hf ha hr hfb ha2 =>
    intro x hx
    rcases List.mem_cons.mp hx with rfl | hx
    · intro hf'; simp [Group.isFallback] at hf'
    · refine keep hm (fun _ => ?_) x hx
      simp [words, wordsAux]

theorem Run.tails {limit : Nat} {done : List Str} {v : Vars} (h : Run limit done v) :
    EntriesTail v.groups := by
  induction h with
  | start => intro x hx; simp at hx
  | @step _ tok _ _ hr _ ht _ hst ih =>
    have hone : ∀ {g p}, TailOk { group := g, reportPart := p, rawString := tok } := by
      intro g p _
      simp only [ht.words]
      simp
    cases hst with
    | absorbed ha => exact ha.tails (Or.inl ht) ih
    | parsed ha => exact entriesTail_addGroup (ha.tails (Or.inl ht) ih) hone
    | reparsed ha => exact entriesTail_addGroup (ha.tails (Or.inl ht) ih) hone

end Parser

end Metaf
