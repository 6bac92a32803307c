import Verif.Props.Trend
import Verif.Proofs.Util

/-!
C69: the group made of the words of a trend, in full.
-/

namespace Metaf.Props

set_option linter.unusedSectionVars false

open Metaf Metaf.Spec Metaf.TrendGroup

variable [FloatSem]

/-- The words `ws` make up one trend in part `p`: each word is allowed there and continues the words
before it. -/
inductive TrendSentence (p : ReportPart) : List TrendWord → Prop
  | one {w : TrendWord} : w.Ok → w.AllowedIn p → TrendSentence p [w]
  | more {ws : List TrendWord} {w : TrendWord} : TrendSentence p ws → w.Ok → w.AllowedIn p → w.Continues ws →
      TrendSentence p (ws ++ [w])

/-- What the words of a trend say together. The type is that of the only word, or the change indicator,
or else a period. Probability and times are those written. -/
def trendMeaning (ws : List TrendWord) : TrendGroup where
  t := match ws with
    | [w] => w.type
    | _ => ((ws.find? (·.isChange)).map (·.type)).getD .TIME_SPAN
  prob := ((ws.find? (·.isProbability)).map (·.probability)).getD .NONE
  isTafTimeSpanGroup := match ws with
    | [w] => w.isSpan
    | _ => false
  tFrom := ws.findSome? (·.since)
  tTill := ws.findSome? (·.till)
  tAt := ws.findSome? (·.moment)

theorem says_findSome {ws : List TrendWord} {o : Option MetafTime} {f : TrendWord → Option MetafTime}
    (h : ∀ t, o = some t ↔ ∃ w ∈ ws, f w = some t) : o = ws.findSome? f := by
  cases hf : ws.findSome? f with
  | none =>
    rw [List.findSome?_eq_none_iff] at hf
    cases o with
    | none => rfl
    | some t =>
      obtain ⟨w, hw, e⟩ := (h t).mp rfl
      rw [hf w hw] at e; cases e
  | some t =>
    obtain ⟨w, hw, e⟩ := List.exists_of_findSome?_eq_some hf
    exact (h t).mpr ⟨w, hw, e⟩

theorem prob_iff (w : TrendWord) : w.isProbability = true ↔ w.probability ≠ .NONE := by
  cases w <;> simp [TrendWord.isProbability, TrendWord.probability]

theorem says_prob {ws : List TrendWord} {q : Probability}
    (h : ∀ q', q' ≠ .NONE → (q = q' ↔ ∃ w ∈ ws, w.probability = q')) :
    q = ((ws.find? (·.isProbability)).map (·.probability)).getD .NONE := by
  cases hf : ws.find? (·.isProbability) with
  | none =>
    rw [List.find?_eq_none] at hf
    by_contra hq
    obtain ⟨w, hw, e⟩ := (h q hq).mp rfl
    exact hf w hw ((prob_iff w).mpr (e ▸ hq))
  | some w =>
    have hw := List.mem_of_find?_eq_some hf
    have hp : w.isProbability = true := by have := List.find?_some hf; simpa using this
    exact (h _ ((prob_iff w).mp hp)).mpr ⟨w, hw, rfl⟩

theorem combined_flag {g n g' : TrendGroup} (h : combined g n = some g') :
    g'.isTafTimeSpanGroup = g.isTafTimeSpanGroup := by
  unfold combined at h
  have c1 : ∀ {x}, combineProbAndTrendTypeGroups g n = some x → x.isTafTimeSpanGroup = g.isTafTimeSpanGroup := by
    intro x hx
    unfold combineProbAndTrendTypeGroups at hx
    ite_cases hx
    all_goals first
      | (cases hx; done)
      | (obtain rfl := Option.some.inj hx; rfl)
  have c2 : ∀ {x}, combineTrendTypeAndTimeGroup g n = some x → x.isTafTimeSpanGroup = g.isTafTimeSpanGroup := by
    intro x hx
    unfold combineTrendTypeAndTimeGroup at hx
    ite_cases hx
    all_goals first
      | (cases hx; done)
      | (obtain rfl := Option.some.inj hx; rfl)
  have c3 : ∀ {x}, combineProbAndTimeSpanGroups g n = some x → x.isTafTimeSpanGroup = g.isTafTimeSpanGroup := by
    intro x hx
    unfold combineProbAndTimeSpanGroups at hx
    ite_cases hx
    all_goals first
      | (cases hx; done)
      | (obtain rfl := Option.some.inj hx; rfl)
  have c4 : ∀ {x}, combineIncompleteGroups g n = some x → x.isTafTimeSpanGroup = g.isTafTimeSpanGroup := by
    intro x hx
    unfold combineIncompleteGroups at hx
    ite_cases hx
    all_goals first
      | (cases hx; done)
      | (obtain rfl := Option.some.inj hx; rfl)
  split at h
  · rename_i e; rw [← Option.some.inj h]; exact c1 e
  · split at h
    · rename_i e; rw [← Option.some.inj h]; exact c2 e
    · split at h
      · rename_i e; rw [← Option.some.inj h]; exact c3 e
      · exact c4 h

theorem append_continues {ws : List TrendWord} {g g' : TrendGroup} (h : Built ws g) {s : Str} {p : ReportPart}
    (ha : TrendGroup.append g s p = (g', .APPENDED)) :
    ∃ w : TrendWord, w.Ok ∧ w.AllowedIn p ∧ s = w.text ∧ w.Continues ws := by
  rcases C45_append h s p with ⟨h1, -⟩ | ⟨-, h2⟩
  · exact h1
  · rw [ha] at h2; cases h2

theorem word_text_inj {w v : TrendWord} {p : ReportPart} (hw : w.Ok) (hv : v.Ok) (aw : w.AllowedIn p)
    (av : v.AllowedIn p) (h : w.text = v.text) : wordGroup w = wordGroup v := by
  have := parse_word hw aw
  rw [h, parse_word hv av] at this
  exact (Option.some.inj this).symm

theorem built_flag {ws : List TrendWord} {g : TrendGroup} (h : Built ws g) (hl : 2 ≤ ws.length) :
    g.isTafTimeSpanGroup = false := by
  induction h with
  | first => simp at hl
  | @next ws w p g g' hb hok ha happ ih =>
    obtain ⟨v, hv, hav, htx, hc⟩ := append_continues hb happ
    have hflag : g'.isTafTimeSpanGroup = g.isTafTimeSpanGroup := by
      rw [append_word hok ha] at happ
      split at happ
      · cases happ
      · split at happ
        · rename_i e
          rw [← (Prod.mk.inj happ).1]
          exact combined_flag e
        · cases happ
    rw [hflag]
    by_cases h2 : 2 ≤ ws.length
    · exact ih h2
    · rcases (says_of_built hb).shape with ⟨u, rfl, rfl⟩ | ⟨h3, -⟩
      · rcases hc with ⟨q, e, hq, -⟩ | ⟨⟨c, hcm, hch⟩, -, -⟩ | ⟨f, e, hf, -⟩
        · obtain rfl := List.singleton_inj.mp e
          cases u <;> first | rfl | cases hq
        · obtain rfl := List.mem_singleton.mp hcm
          cases c <;> first | rfl | cases hch
        · obtain rfl := List.singleton_inj.mp e
          cases u <;> first | rfl | cases hf
      · exact absurd h3 h2

/-- C69. The words of a trend determine the group, which is what they say together. -/
theorem built_meaning {ws : List TrendWord} {g : TrendGroup} (h : Built ws g) : g = trendMeaning ws := by
  have s := says_of_built h
  rcases s.shape with ⟨w, rfl, rfl⟩ | ⟨hl, hs⟩
  · cases w <;> rfl
  · have e3 := built_flag h hl
    have e1 : g.t = (trendMeaning ws).t := by
      have : (trendMeaning ws).t = ((ws.find? (·.isChange)).map (·.type)).getD .TIME_SPAN := by
        match ws, hl with
        | _ :: _ :: _, _ => rfl
      rw [this]
      rcases hs with ⟨⟨c, hc, hch⟩, hall⟩ | ⟨ht, hall⟩
      · cases hf : ws.find? (·.isChange) with
        | none => exact absurd hch (List.find?_eq_none.mp hf c hc)
        | some v => exact hall v (List.mem_of_find?_eq_some hf) (by have := List.find?_some hf; simpa using this)
      · have : ws.find? (·.isChange) = none := List.find?_eq_none.mpr fun v hv => by simp [hall v hv]
        rw [this]; exact ht
    have e2 : (trendMeaning ws).isTafTimeSpanGroup = false := by
      match ws, hl with
      | _ :: _ :: _, _ => rfl
    obtain ⟨gt, gp, gf, ga, gb, gc⟩ := g
    rw [show trendMeaning ws = ⟨(trendMeaning ws).t, (trendMeaning ws).prob, (trendMeaning ws).isTafTimeSpanGroup,
      (trendMeaning ws).tFrom, (trendMeaning ws).tTill, (trendMeaning ws).tAt⟩ from rfl]
    congr 1
    · exact says_prob s.prob
    · exact e3.trans e2.symm
    · exact says_findSome s.since
    · exact says_findSome s.till
    · exact says_findSome s.moment

theorem sentence_built {p : ReportPart} {ws : List TrendWord} (h : TrendSentence p ws) :
    Built ws (trendMeaning ws) := by
  have : ∃ g, Built ws g := by
    induction h with
    | one hok ha => exact ⟨_, .first hok ha (parse_word hok ha)⟩
    | more _ hok ha hc ih =>
      obtain ⟨g, hg⟩ := ih
      rcases C45_append hg _ p with ⟨-, g', hg'⟩ | ⟨h1, -⟩
      · exact ⟨g', .next hg hok ha hg'⟩
      · exact absurd ⟨_, hok, ha, rfl, hc⟩ h1
  obtain ⟨g, hg⟩ := this
  rw [← built_meaning hg]; exact hg

/-- `PROB40 TEMPO 0412/0506` -/
example : TrendSentence .TAF [.prob40, .tempo, .span 4 12 5 6] ∧
    trendMeaning [.prob40, .tempo, .span 4 12 5 6] =
      { t := .TEMPO, prob := .PROB_40, tFrom := some ⟨some 4, 12, 0⟩, tTill := some ⟨some 5, 6, 0⟩ } :=
  ⟨.more (ws := [.prob40, .tempo]) (.more (ws := [.prob40]) (.one trivial rfl) trivial (Or.inr rfl)
      (Or.inl ⟨_, rfl, rfl, Or.inl rfl⟩)) (by simp [TrendWord.Ok]) (Or.inl rfl)
    (Or.inr (Or.inl ⟨⟨.tempo, by simp, rfl⟩, rfl, by simp [TrendWord.Compatible, TrendWord.since, TrendWord.till, TrendWord.moment]⟩)), rfl⟩

end Metaf.Props
