import Verif.Proofs.Insertion
import Verif.Ieee

/-!
C114: a group or a word inserted between two groups of a report changes nothing else.
-/

set_option linter.unusedSectionVars false

namespace Metaf.Props

open Metaf Metaf.Spec

variable [FloatIeee]

theorem header_words {hs : List (Str × Group)} (h : ∀ w ∈ wordsOf hs, Parser.Tok w) :
    (headerEntries hs).flatMap (fun x => words x.rawString) = wordsOf hs := by
  induction hs with
  | nil => rfl
  | cons x hs ih =>
    have ih := ih fun w hw => h w (List.mem_cons_of_mem _ hw)
    have := (h x.1 (List.mem_cons_self ..)).words
    simp only [headerEntries, wordsOf, List.map_cons, List.flatMap_cons] at ih ⊢
    rw [ih, this]
    rfl

/-- Not more words are read than there are. -/
theorem body_length {ty : ReportType} {now : Option Nat} {ws : List Str} {n : Nat} {gs : List GroupInfo} {e : ReportError}
    (h : BodyMeaning ty now ws n gs e) : n ≤ ws.length := by
  have after : ∀ {err ws n gs e}, After err ws n gs e → n ≤ ws.length := by
    intro err ws n gs e h
    cases h <;> simp
  cases h with
  | nothing => simp
  | nil h => have := after h; simp only [List.length_cons]; omega
  | cnl _ h => have := after h; simp only [List.length_cons]; omega
  | cnlMetar => simp
  | body => exact Nat.le_refl _
  | ended => simp
  | maintenance => simp
  | remarks _ _ h =>
    have : ∀ {ws n gs e}, RemarksMeaning ty now ws n gs e → n ≤ ws.length := by
      intro ws n gs e h
      cases h <;> simp
    have := this h
    simp only [List.length_append, List.length_cons]
    omega

/-- An entry which is in no header. -/
def OutsideHeader (x : GroupInfo) : Prop :=
  ∀ hs : List (Str × Group), (∃ ty, FullHeader ty hs) ∨ Opening .time .UNKNOWN hs → x ∉ headerEntries hs

/-- The report with one more group, from what follows the header. -/
theorem report_insert {s s' : Str} {wb v : List Str} {limit limit' : Nat} {r : ParseResult} {ga gb : List GroupInfo}
    {y : GroupInfo} (hs : Groups s (ga.flatMap (fun x => words x.rawString) ++ wb))
    (hs' : Groups s' (ga.flatMap (fun x => words x.rawString) ++ (v ++ wb))) (hr : Result s limit r)
    (he : r.reportMetadata.error = .NONE) (hn : r.reportMetadata.isNil = false)
    (hc : r.reportMetadata.isCancelled = false) (hg : r.groups = ga ++ gb)
    (hx : ∃ x ∈ ga, words x.rawString ≠ [] ∧ OutsideHeader x)
    (hl : (ga.flatMap (fun x => words x.rawString) ++ (v ++ wb)).length + 1 < limit')
    (step : ∀ {now ws n ga'}, (∃ hs, ga = headerEntries hs ++ ga' ∧ ((∃ ty, FullHeader ty hs) ∨ Opening .time .UNKNOWN hs)) →
      ga' ≠ [] →
      BodyMeaning r.reportMetadata.type now ws n (ga' ++ gb) .NONE → hasWord .NIL (ga' ++ gb) = false →
      hasWord .CNL (ga' ++ gb) = false → (∀ w ∈ ws, Parser.Tok w) →
      ws = ga'.flatMap (fun x => words x.rawString) ++ wb →
      BodyMeaning r.reportMetadata.type now (ga'.flatMap (fun x => words x.rawString) ++ (v ++ wb)) (n + v.length)
        (ga' ++ y :: gb) .NONE) :
    ∃ r', Result s' limit' r' ∧ r'.groups = ga ++ y :: gb ∧ r'.reportMetadata.type = r.reportMetadata.type ∧
      r'.reportMetadata.error = .NONE := by
  have ho := outcome_of hs hr
  have hrec := C85_record hr
  have htok : ∀ w ∈ ga.flatMap (fun x => words x.rawString) ++ wb, Parser.Tok w := by
    intro w hw
    rw [← tokens_of_groups hs] at hw
    exact Parser.tok_of_mem hw
  rw [he] at ho hrec
  rw [hrec] at hn hc
  have hn : hasWord .NIL r.groups = false := hn
  have hc : hasWord .CNL r.groups = false := hc
  clear hrec he hr
  rw [hg] at ho hn hc
  clear hg
  generalize r.reportMetadata.type = ty at ho step ⊢
  suffices ∃ n, Meaning (ga.flatMap (fun x => words x.rawString) ++ (v ++ wb)) n (ga ++ y :: gb) ty .NONE ∧
      n ≤ (ga.flatMap (fun x => words x.rawString) ++ (v ++ wb)).length + 1 by
    obtain ⟨n, h1, h2⟩ := this
    obtain ⟨r', a, b, c, d⟩ := (C84_outcome hs').mpr (Outcome.within h1 (limit := limit') (by omega))
    exact ⟨r', a, b, c, d⟩
  have split : ∀ {hs : List (Str × Group)} {gs : List GroupInfo} {ws : List Str},
      (∃ ty, FullHeader ty hs) ∨ Opening .time .UNKNOWN hs → ga ++ gb = headerEntries hs ++ gs →
      ga.flatMap (fun x => words x.rawString) ++ wb = wordsOf hs ++ ws →
      ∃ ga', ga = headerEntries hs ++ ga' ∧ gs = ga' ++ gb ∧ ga'.flatMap (fun x => words x.rawString) ≠ [] ∧
        ws = ga'.flatMap (fun x => words x.rawString) ++ wb ∧
        ga.flatMap (fun x => words x.rawString) = wordsOf hs ++ ga'.flatMap (fun x => words x.rawString) := by
    intro hs gs ws hh e e'
    obtain ⟨x, hx, hx1, hx2⟩ := hx
    have := hx2 hs hh
    rcases List.append_eq_append_iff.mp e with ⟨c, h1, h2⟩ | ⟨c, h1, h2⟩
    · exact absurd (by rw [h1]; exact List.mem_append_left _ hx) this
    · have hw : (headerEntries hs).flatMap (fun x => words x.rawString) = wordsOf hs := by
        refine header_words fun w hw => htok w ?_
        rw [e']
        exact List.mem_append_left _ hw
      have e2 : ga.flatMap (fun x => words x.rawString) = wordsOf hs ++ c.flatMap (fun x => words x.rawString) := by
        rw [h1, List.flatMap_append, hw]
      refine ⟨c, h1, h2, ?_, ?_, e2⟩
      · intro h
        have hm : x ∈ c := by
          rw [h1] at hx
          exact (List.mem_append.mp hx).resolve_left this
        exact hx1 (List.flatMap_eq_nil_iff.mp h x hm)
      · rw [e2, List.append_assoc] at e'
        exact (List.append_cancel_left e').symm
  generalize hx : ReportError.NONE = e at ho
  generalize hy : ga ++ gb = gs at ho
  generalize hz : ga.flatMap (fun x => words x.rawString) ++ wb = ws at ho
  cases ho with
  | tooLarge => cases hx
  | third => cases hx
  | within h _ =>
    cases h with
    | empty => cases hx
    | cut => cases hx
    | wrong _ h => subst hx; cases h
    | nil => rw [hy] at hn; simp [hasWord] at hn
    | @typed _ hs ws n gs _ hf hb =>
      subst hx
      obtain ⟨ga', h1, h2, h3, h4, h5⟩ := split (Or.inl ⟨_, hf⟩) hy hz
      subst h2
      rw [hy] at hn hc
      simp only [hasWord, List.any_append, Bool.or_eq_false_iff] at hn hc
      have := step ⟨_, h1, Or.inl ⟨_, hf⟩⟩ (by rintro rfl; exact h3 rfl) hb
        (by simp only [hasWord, List.any_append, Bool.or_eq_false_iff]; exact hn.2)
        (by simp only [hasWord, List.any_append, Bool.or_eq_false_iff]; exact hc.2)
        (fun w hw => htok w (by rw [hz]; exact List.mem_append_right _ hw)) h4
      have hm := Meaning.typed hf this
      refine ⟨hs.length + (n + v.length), ?_, ?_⟩
      · rw [h5, h1, List.append_assoc, List.append_assoc]
        exact hm
      · have hl := body_length hb
        rw [h5]
        rw [h4] at hl
        simp only [List.length_append, wordsOf, List.length_map] at hl ⊢
        omega
    | @untyped hs w ws n gs _ hf hp hnil hb =>
      subst hx
      obtain ⟨ga', h1, h2, h3, h4, h5⟩ := split (Or.inr hf) hy hz
      subst h2
      rw [hy] at hn hc
      simp only [hasWord, List.any_append, Bool.or_eq_false_iff] at hn hc
      have := step ⟨_, h1, Or.inr hf⟩ (by rintro rfl; exact h3 rfl) hb
        (by simp only [hasWord, List.any_append, Bool.or_eq_false_iff]; exact hn.2)
        (by simp only [hasWord, List.any_append, Bool.or_eq_false_iff]; exact hc.2)
        (fun w hw => htok w (by rw [hz]; exact List.mem_append_right _ hw)) h4
      have hl := body_length hb
      rw [h4] at hl
      obtain ⟨a, l, e⟩ := List.exists_cons_of_ne_nil h3
      rw [e, List.cons_append] at h4
      injection h4 with h4 _
      subst h4
      rw [e] at this h5 hl
      have hm := Meaning.untyped hf hp hnil this
      refine ⟨hs.length + 1 + (n + v.length), ?_, ?_⟩
      · rw [h5, h1, List.append_assoc, List.append_assoc]
        exact hm
      · rw [h5]
        simp only [List.length_append, wordsOf, List.length_map, List.length_cons] at hl ⊢
        omega

/-- A group of the body which is not unknown has words. -/
theorem said_words {now : Option Nat} {x : GroupInfo} (h : Said now x) (hp : x.reportPart = .METAR ∨ x.reportPart = .TAF)
    (hk : Known x) : words x.rawString ≠ [] := by
  cases h with
  | unknown => exact absurd rfl (hk _)
  | header => rcases hp with h | h <;> cases h
  | afterNil => rcases hp with h | h <;> cases h
  | body hp h => exact written_ne hp h
  | remark => rcases hp with h | h <;> cases h
  | remnant => rcases hp with h | h <;> cases h

theorem rmk_words {now : Option Nat} {x : GroupInfo} (h : Said now x) (hg : x.group = .keyword ⟨.RMK⟩) :
    words x.rawString ≠ [] := by
  have key : ∀ {p s}, IsKeyword p s .RMK → words s ≠ [] := by
    rintro p s ⟨ps, h1, -⟩
    simp only [keywords, List.mem_cons, Prod.mk.injEq, List.not_mem_nil, or_false, reduceCtorEq, false_and, and_false,
      or_self, false_or] at h1
    rw [h1.1]
    decide
  cases h with
  | unknown => cases hg
  | header h =>
    cases h with
    | keyword h =>
      injection hg with hg
      injection hg with hg
      subst hg
      exact key h
    | _ => cases hg
  | afterNil h =>
    injection hg with hg
    injection hg with hg
    subst hg
    exact key h
  | body hp h => exact written_ne hp h
  | remark h => exact remark_ne h
  | remnant => cases hg

theorem rmk_outside {x : GroupInfo} (hg : x.group = .keyword ⟨.RMK⟩) : OutsideHeader x := by
  have opening : ∀ {p ty hs}, Opening p ty hs → ∀ y ∈ hs, y.2 ≠ Group.keyword ⟨.RMK⟩ := by
    intro p ty hs h
    induction h with
    | start => simp
    | metar | speci | taf => simp
    | cor _ ih | amd _ ih | location _ _ _ ih | time _ _ _ _ _ ih =>
      intro y hy
      rcases List.mem_append.mp hy with hy | hy
      · exact ih y hy
      · rw [List.mem_singleton.mp hy]
        simp
  rintro hs hh hm
  obtain ⟨y, hy, rfl⟩ := List.mem_map.mp hm
  refine absurd hg ?_
  rcases hh with ⟨ty, hh⟩ | hh
  · cases hh with
    | metar h | taf h | tafTime h =>
      rcases List.mem_append.mp hy with hy | hy
      · exact opening h y hy
      · rw [List.mem_singleton.mp hy]
        simp [periodGroup]
  · exact opening hh y hy

theorem body_outside {x : GroupInfo} (hp : x.reportPart ≠ .HEADER) : OutsideHeader x := by
  rintro hs - hm
  obtain ⟨y, -, rfl⟩ := List.mem_map.mp hm
  exact hp rfl

theorem bodyPart_cases (ty : ReportType) : bodyPart ty = .METAR ∨ bodyPart ty = .TAF := by
  cases ty
  · exact Or.inl rfl
  · exact Or.inl rfl
  · exact Or.inr rfl

/-- C114. A group inserted in the body. Let a report be read without error, and let it be neither missing nor
cancelled. Let `ga` and `gb` be its groups before and after a place in the body, where the last group of `ga`
is not unknown. If `v` is written for the group `g`, and neither does the first word of `v` continue the group
before it nor the next word of the report continue `v`, then the report with the words `v` at this place has
the same groups with `g` between them. Its type is the same and there is no error. -/
theorem C114_group {s s' : Str} {wb v : List Str} {limit limit' : Nat} {r : ParseResult} {ga gb : List GroupInfo}
    {x : GroupInfo} {g : Group} (hs : Groups s (ga.flatMap (fun x => words x.rawString) ++ wb))
    (hs' : Groups s' (ga.flatMap (fun x => words x.rawString) ++ (v ++ wb))) (hr : Result s limit r)
    (he : r.reportMetadata.error = .NONE) (hn : r.reportMetadata.isNil = false)
    (hc : r.reportMetadata.isCancelled = false) (hg : r.groups = ga ++ gb)
    (hl : (ga.flatMap (fun x => words x.rawString) ++ (v ++ wb)).length + 1 < limit')
    (hx : ga.getLast? = some x) (hxp : x.reportPart = bodyPart r.reportMetadata.type) (hxk : Known x)
    (hrm : ∀ y ∈ ga, y.group ≠ .keyword ⟨.RMK⟩)
    (hw : Written (bodyPart r.reportMetadata.type) v g) (hf : ¬ Unfinished v)
    (hst : ∀ w ∈ v, w ∉ stops (bodyPart r.reportMetadata.type))
    (hbefore : ∀ w, v.head? = some w → ∀ g', ¬ Written (bodyPart r.reportMetadata.type) (words x.rawString ++ [w]) g')
    (hafter : ∀ w, wb.head? = some w → ∀ g', ¬ Written (bodyPart r.reportMetadata.type) (v ++ [w]) g') :
    ∃ r', Result s' limit' r' ∧ r'.groups = ga ++ ⟨g, bodyPart r.reportMetadata.type, unwords v⟩ :: gb ∧
      r'.reportMetadata.type = r.reportMetadata.type ∧ r'.reportMetadata.error = .NONE := by
  have hxm := List.mem_of_getLast? hx
  have hxb : x.reportPart = .METAR ∨ x.reportPart = .TAF := by rw [hxp]; exact bodyPart_cases _
  refine report_insert hs hs' hr he hn hc hg ⟨x, hxm, ?_, body_outside ?_⟩ hl ?_
  · exact said_words (C75_said hr x (by rw [hg]; exact List.mem_append_left _ hxm)) hxb hxk
  · rcases hxb with h | h <;> rw [h] <;> exact nofun
  · rintro now ws n ga' ⟨hd, e, -⟩ hne hb hn hc ht hws
    have hlast : ga'.getLast? = some x := by
      rw [e, List.getLast?_append] at hx
      rw [List.getLast?_eq_some_getLast hne] at hx ⊢
      exact hx
    refine body_insert hb hn hc ht hws ?_ ?_ ?_ (Or.inl ⟨hw, hf⟩) hst ?_ fun _ => hafter
    · intro y hy
      rw [hlast] at hy
      cases hy
      exact hxk
    · exact fun y hy => hrm y (by rw [e]; exact List.mem_append_right _ hy)
    · rintro rfl
      cases hw
    · intro _ y hy
      rw [hlast] at hy
      cases hy
      exact hbefore

/-- The metadata of a report with one more unknown group. -/
theorem record_unknown {ga gb : List GroupInfo} {ty : ReportType} {e : ReportError} {p : ReportPart} {t : Str} :
    recordOf (ga ++ ⟨.unknown {}, p, t⟩ :: gb) ty e = recordOf (ga ++ gb) ty e := by
  have last : ∀ {α : Type} {f : GroupInfo → Option α}, f ⟨.unknown {}, p, t⟩ = none →
      lastSaid f (ga ++ ⟨.unknown {}, p, t⟩ :: gb) = lastSaid f (ga ++ gb) := by
    intro α f hf
    unfold lastSaid
    rw [List.reverse_append, List.reverse_append, List.reverse_cons, List.append_assoc, List.findSome?_append,
      List.findSome?_append, List.findSome?_append, List.findSome?_cons, hf]
    rfl
  have first : ∀ {α : Type} {f : GroupInfo → Option α}, f ⟨.unknown {}, p, t⟩ = none →
      firstSaid f (ga ++ ⟨.unknown {}, p, t⟩ :: gb) = firstSaid f (ga ++ gb) := by
    intro α f hf
    unfold firstSaid
    rw [List.findSome?_append, List.findSome?_append, List.findSome?_cons, hf]
  have word : ∀ k, hasWord k (ga ++ ⟨.unknown {}, p, t⟩ :: gb) = hasWord k (ga ++ gb) := by
    intro k
    unfold hasWord
    rw [List.any_append, List.any_append, List.any_cons]
    simp
  have mark : ¬ IsCorrectionMark (.unknown {}) := by
    rintro ⟨m, h, -⟩
    cases h
  have any : ((ga ++ ⟨.unknown {}, p, t⟩ :: gb).any fun x => decide (IsCorrectionMark x.group)) =
      (ga ++ gb).any fun x => decide (IsCorrectionMark x.group) := by
    rw [List.any_append, List.any_append, List.any_cons]
    simp [mark]
  have c1 : lastSaid (fun x => timeValue x.group) (ga ++ ⟨.unknown {}, p, t⟩ :: gb) = _ := last rfl
  have c2 : lastSaid (fun x => locationText x.group) (ga ++ ⟨.unknown {}, p, t⟩ :: gb) = _ := last rfl
  have c3 : lastSaid correctionOf (ga ++ ⟨.unknown {}, p, t⟩ :: gb) = _ := last (if_neg mark)
  have c4 : firstSaid periodOf (ga ++ ⟨.unknown {}, p, t⟩ :: gb) = _ := first rfl
  simp only [recordOf, word, any, c1, c2, c3, c4]

/-- C114. An unknown word inserted in the body. Under the same conditions on the report and the place, where
also the group after it is not unknown: a word which is written for no group is one unknown group there. It
changes no other group, and the metadata is the same. -/
theorem C114_unknown {s s' : Str} {wb : List Str} {limit limit' : Nat} {r : ParseResult} {ga gb : List GroupInfo}
    {x : GroupInfo} {u : Str} (hs : Groups s (ga.flatMap (fun x => words x.rawString) ++ wb))
    (hs' : Groups s' (ga.flatMap (fun x => words x.rawString) ++ u :: wb)) (hr : Result s limit r)
    (he : r.reportMetadata.error = .NONE) (hn : r.reportMetadata.isNil = false)
    (hc : r.reportMetadata.isCancelled = false) (hg : r.groups = ga ++ gb)
    (hl : (ga.flatMap (fun x => words x.rawString) ++ u :: wb).length + 1 < limit')
    (hx : ga.getLast? = some x) (hxp : x.reportPart = bodyPart r.reportMetadata.type) (hxk : Known x)
    (hrm : ∀ y ∈ ga, y.group ≠ .keyword ⟨.RMK⟩) (hb : ∀ y, gb.head? = some y → Known y)
    (hu : ∀ g, ¬ Written (bodyPart r.reportMetadata.type) [u] g) :
    ∃ r', Result s' limit' r' ∧ r'.groups = ga ++ ⟨.unknown {}, bodyPart r.reportMetadata.type, u⟩ :: gb ∧
      r'.reportMetadata = r.reportMetadata := by
  have hxm := List.mem_of_getLast? hx
  have hxb : x.reportPart = .METAR ∨ x.reportPart = .TAF := by rw [hxp]; exact bodyPart_cases _
  have hst : u ∉ stops (bodyPart r.reportMetadata.type) := by
    intro hm
    have : ∀ p, isBody p → ∀ u ∈ stops p, ∃ k, IsKeyword p u k := by
      have all : ∀ p ∈ [ReportPart.METAR, .TAF], ∀ u ∈ stops p, ∃ e ∈ keywords, e.1 = u ∧ p ∈ e.2.2 := by decide
      intro p hp u hu
      obtain ⟨⟨u, k, ps⟩, h1, rfl, h2⟩ := all p (by rcases hp with rfl | rfl <;> simp) u hu
      exact ⟨k, ps, h1, h2⟩
    obtain ⟨k, hk⟩ := this _ (bodyPart_cases _) u hm
    exact hu _ (.keyword hk)
  obtain ⟨r', h1, h2, h3, h4⟩ := report_insert (v := [u]) (y := ⟨.unknown {}, bodyPart r.reportMetadata.type, u⟩)
      hs hs' hr he hn hc hg ⟨x, hxm,
      said_words (C75_said hr x (by rw [hg]; exact List.mem_append_left _ hxm)) hxb hxk,
      body_outside (by rcases hxb with h | h <;> rw [h] <;> exact nofun)⟩ hl (by
    rintro now ws n ga' ⟨hd, e, -⟩ hne hb' hn hc ht hws
    have hlast : ga'.getLast? = some x := by
      rw [e, List.getLast?_append] at hx
      rw [List.getLast?_eq_some_getLast hne] at hx ⊢
      exact hx
    refine body_insert (v := [u]) hb' hn hc ht hws ?_ ?_ (fun _ => hb) (Or.inr ⟨rfl, u, rfl, hu⟩) ?_
      (fun h => absurd rfl (h {})) (fun h => absurd rfl (h {}))
    · intro y hy
      rw [hlast] at hy
      cases hy
      exact hxk
    · exact fun y hy => hrm y (by rw [e]; exact List.mem_append_right _ hy)
    · intro w hw
      rw [List.mem_singleton.mp hw]
      exact hst)
  refine ⟨r', h1, h2, ?_⟩
  have hm := C85_record hr
  have hm' := C85_record h1
  rw [h3, h4, h2, record_unknown, ← hg, ← he] at hm'
  rw [hm', ← hm]

/-- C114. An unknown word inserted in the remarks. Under the same conditions, at a place in the remarks: a
word which is no remark and does not continue the remark before it, where that remark needs no further word,
is one unknown group there. It changes no other group, and the metadata is the same. -/
theorem C114_remark {s s' : Str} {wb : List Str} {limit limit' : Nat} {r : ParseResult} {ga gb : List GroupInfo}
    {x : GroupInfo} {u : Str} (hs : Groups s (ga.flatMap (fun x => words x.rawString) ++ wb))
    (hs' : Groups s' (ga.flatMap (fun x => words x.rawString) ++ u :: wb)) (hr : Result s limit r)
    (he : r.reportMetadata.error = .NONE) (hn : r.reportMetadata.isNil = false)
    (hc : r.reportMetadata.isCancelled = false) (hg : r.groups = ga ++ gb)
    (hl : (ga.flatMap (fun x => words x.rawString) ++ u :: wb).length + 1 < limit')
    (hx : ga.getLast? = some x) (hxk : Known x) (hrm : ∃ y ∈ ga, y.group = .keyword ⟨.RMK⟩)
    (hb : ∀ y, gb.head? = some y → Known y) (hu : ∀ now g, ¬ Remark now [u] g)
    (hbefore : x.reportPart = .RMK →
      (∀ now g, ¬ Remark now (words x.rawString ++ [u]) g) ∧ ¬ Lacking u (words x.rawString)) :
    ∃ r', Result s' limit' r' ∧ r'.groups = ga ++ ⟨.unknown {}, .RMK, u⟩ :: gb ∧
      r'.reportMetadata = r.reportMetadata := by
  obtain ⟨y, hym, hyg⟩ := hrm
  obtain ⟨r', h1, h2, h3, h4⟩ := report_insert (v := [u]) (y := ⟨.unknown {}, .RMK, u⟩)
      hs hs' hr he hn hc hg ⟨y, hym,
      rmk_words (C75_said hr y (by rw [hg]; exact List.mem_append_left _ hym)) hyg, rmk_outside hyg⟩ hl (by
    rintro now ws n ga' ⟨hd, e, hh⟩ hne hb' hn hc ht hws
    have hlast : ga'.getLast? = some x := by
      rw [e, List.getLast?_append] at hx
      rw [List.getLast?_eq_some_getLast hne] at hx ⊢
      exact hx
    refine body_insert_remark hb' hn hc ht hws ?_ ?_ hb (hu now) ?_
    · intro y hy
      rw [hlast] at hy
      cases hy
      exact hxk
    · refine ⟨y, ?_, hyg⟩
      rw [e] at hym
      exact (List.mem_append.mp hym).resolve_left (rmk_outside hyg _ hh)
    · intro y hy hp
      rw [hlast] at hy
      cases hy
      exact ⟨(hbefore hp).1 now, (hbefore hp).2⟩)
  refine ⟨r', h1, h2, ?_⟩
  have hm := C85_record hr
  have hm' := C85_record h1
  rw [h3, h4, h2, record_unknown, ← hg, ← he] at hm'
  rw [hm', ← hm]

end Metaf.Props

namespace Metaf.Props

open Metaf Metaf.Spec

section
attribute [local instance] ieee

theorem unwritten {w : Str} (h : ∀ i < 21, recognise i w .METAR {} = .ok none) (g : Group) : ¬ Written .METAR [w] g := by
  intro hw
  obtain ⟨v, rest, g0, e, hr⟩ := first_kind (written_reads (Or.inl rfl) (md := {}) hw)
  obtain ⟨rfl, -⟩ := List.cons.inj e
  rw [h _ (recognise_shape hr).1] at hr
  cases hr

theorem apart {ws : List Str} {g : Group} {w : Str} (h : Written .METAR ws g)
    (ha : g.append w .METAR {} = .ok (g, .NOT_APPENDED)) (g' : Group) : ¬ Written .METAR (ws ++ [w]) g' := by
  intro hw
  obtain ⟨y, hy⟩ := (taken_iff (Or.inl rfl) (written_reads (Or.inl rfl) (md := {}) h) w).mpr ⟨g', hw⟩
  rw [ha] at hy
  injection hy with hy
  injection hy with _ hy
  cases hy

/-- The report of the examples. -/
theorem example_report : ∃ r, Result c!"METAR ULLI 112200Z 24005MPS NOSIG RMK AO2 SLP123" 200 r ∧
    r.reportMetadata.error = .NONE ∧ r.reportMetadata.isNil = false ∧ r.reportMetadata.isCancelled = false ∧
    r.reportMetadata.type = .METAR ∧ r.groups =
      [⟨.keyword ⟨.METAR⟩, .HEADER, c!"METAR"⟩, ⟨.location ⟨c!"ULLI"⟩, .HEADER, c!"ULLI"⟩,
       ⟨.reportTime ⟨⟨some 11, 22, 0⟩⟩, .HEADER, c!"112200Z"⟩,
       ⟨.wind (WindText.mk none (.tens 24) (some 5) none .METERS_PER_SECOND).group, .METAR, c!"24005MPS"⟩,
       ⟨.trend (trendMeaning [.nosig]), .METAR, c!"NOSIG"⟩, ⟨.keyword ⟨.RMK⟩, .METAR, c!"RMK"⟩,
       ⟨.keyword ⟨.AO2⟩, .RMK, c!"AO2"⟩, ⟨.pressure ⟨.OBSERVED_SLP, ⟨some (slpOf 123), .HECTOPASCAL⟩, false⟩, .RMK, c!"SLP123"⟩] := by
  refine ⟨{ reportMetadata := _, groups := _ }, rfl, ?_⟩
  decide +kernel

theorem example_wind : Written .METAR [c!"24005MPS"]
    (.wind (WindText.mk none (.tens 24) (some 5) none .METERS_PER_SECOND).group) :=
  .wind (.wind (w := ⟨none, .tens 24, some 5, none, .METERS_PER_SECOND⟩) (Or.inl rfl)
    ⟨by simp, by simp [WindDirection.Ok], by simp, by simp, by simp⟩)

set_option maxRecDepth 4000 in
/-- The group `CAVOK` between the wind and `NOSIG`. -/
example : ∃ r r', Result c!"METAR ULLI 112200Z 24005MPS NOSIG RMK AO2 SLP123" 200 r ∧
    Result c!"METAR ULLI 112200Z 24005MPS CAVOK NOSIG RMK AO2 SLP123" 200 r' ∧
    r'.groups = r.groups.take 4 ++ ⟨.keyword ⟨.CAVOK⟩, .METAR, c!"CAVOK"⟩ :: r.groups.drop 4 := by
  obtain ⟨r, h1, h2, h3, h4, h5, h6⟩ := example_report
  have hv : Written .METAR [c!"CAVOK"] (.keyword ⟨.CAVOK⟩) :=
    .keyword ⟨[.METAR, .TAF], by simp [keywords], by decide⟩
  obtain ⟨r', h7, h8, -⟩ := C114_group (s' := c!"METAR ULLI 112200Z 24005MPS CAVOK NOSIG RMK AO2 SLP123")
    (wb := [c!"NOSIG", c!"RMK", c!"AO2", c!"SLP123"]) (v := [c!"CAVOK"]) (limit' := 200) (g := .keyword ⟨.CAVOK⟩)
    (ga := r.groups.take 4) (gb := r.groups.drop 4)
    (x := ⟨.wind (WindText.mk none (.tens 24) (some 5) none .METERS_PER_SECOND).group, .METAR, c!"24005MPS"⟩)
    (by rw [h6]; exact groups_tokens c!"METAR ULLI 112200Z 24005MPS NOSIG RMK AO2 SLP123")
    (by rw [h6]; exact groups_tokens c!"METAR ULLI 112200Z 24005MPS CAVOK NOSIG RMK AO2 SLP123") h1 h2 h3 h4
    (List.take_append_drop 4 r.groups).symm (by rw [h6]; exact Nat.le_of_ble_eq_true rfl) (by rw [h6]; rfl)
    (by rw [h5]; rfl) nofun (by rw [h6]; simp) (by rw [h5]; exact hv) nofun (by rw [h5]; decide)
    (by rw [h5]; rintro w hw; cases hw; exact apart example_wind rfl)
    (by rw [h5]; rintro w hw; cases hw; exact apart hv rfl)
  rw [h5] at h8
  exact ⟨r, r', h1, h7, h8⟩

set_option maxRecDepth 4000 in
/-- The unknown word `XYZ` between the wind and `NOSIG`. -/
example : ∃ r r', Result c!"METAR ULLI 112200Z 24005MPS NOSIG RMK AO2 SLP123" 200 r ∧
    Result c!"METAR ULLI 112200Z 24005MPS XYZ NOSIG RMK AO2 SLP123" 200 r' ∧
    r'.groups = r.groups.take 4 ++ ⟨.unknown {}, .METAR, c!"XYZ"⟩ :: r.groups.drop 4 ∧
    r'.reportMetadata = r.reportMetadata := by
  obtain ⟨r, h1, h2, h3, h4, h5, h6⟩ := example_report
  obtain ⟨r', h7, h8, h9⟩ := C114_unknown (s' := c!"METAR ULLI 112200Z 24005MPS XYZ NOSIG RMK AO2 SLP123")
    (wb := [c!"NOSIG", c!"RMK", c!"AO2", c!"SLP123"]) (u := c!"XYZ") (limit' := 200)
    (ga := r.groups.take 4) (gb := r.groups.drop 4)
    (x := ⟨.wind (WindText.mk none (.tens 24) (some 5) none .METERS_PER_SECOND).group, .METAR, c!"24005MPS"⟩)
    (by rw [h6]; exact groups_tokens c!"METAR ULLI 112200Z 24005MPS NOSIG RMK AO2 SLP123")
    (by rw [h6]; exact groups_tokens c!"METAR ULLI 112200Z 24005MPS XYZ NOSIG RMK AO2 SLP123") h1 h2 h3 h4
    (List.take_append_drop 4 r.groups).symm (by rw [h6]; exact Nat.le_of_ble_eq_true rfl) (by rw [h6]; rfl)
    (by rw [h5]; rfl) nofun (by rw [h6]; simp) (by rw [h6]; rintro y hy; cases hy; exact nofun)
    (by rw [h5]; exact unwritten (by intro i hi; interval_cases i <;> rfl))
  rw [h5] at h8
  exact ⟨r, r', h1, h7, h8, h9⟩

set_option maxRecDepth 4000 in
/-- The unknown word `XYZ` between the remarks. -/
example : ∃ r r', Result c!"METAR ULLI 112200Z 24005MPS NOSIG RMK AO2 SLP123" 200 r ∧
    Result c!"METAR ULLI 112200Z 24005MPS NOSIG RMK AO2 XYZ SLP123" 200 r' ∧
    r'.groups = r.groups.take 7 ++ ⟨.unknown {}, .RMK, c!"XYZ"⟩ :: r.groups.drop 7 ∧
    r'.reportMetadata = r.reportMetadata := by
  obtain ⟨r, h1, h2, h3, h4, h5, h6⟩ := example_report
  obtain ⟨r', h7, h8, h9⟩ := C114_remark (s' := c!"METAR ULLI 112200Z 24005MPS NOSIG RMK AO2 XYZ SLP123")
    (wb := [c!"SLP123"]) (u := c!"XYZ") (limit' := 200)
    (ga := r.groups.take 7) (gb := r.groups.drop 7) (x := ⟨.keyword ⟨.AO2⟩, .RMK, c!"AO2"⟩)
    (by rw [h6]; exact groups_tokens c!"METAR ULLI 112200Z 24005MPS NOSIG RMK AO2 SLP123")
    (by rw [h6]; exact groups_tokens c!"METAR ULLI 112200Z 24005MPS NOSIG RMK AO2 XYZ SLP123") h1 h2 h3 h4
    (List.take_append_drop 7 r.groups).symm (by rw [h6]; exact Nat.le_of_ble_eq_true rfl) (by rw [h6]; rfl)
    nofun ⟨⟨.keyword ⟨.RMK⟩, .METAR, c!"RMK"⟩, by rw [h6]; simp, rfl⟩ (by rw [h6]; rintro y hy; cases hy; exact nofun)
    (by
      intro now g hg
      have hm : ∀ md : ReportMetadata, (∀ i < 21, recognise i c!"XYZ" .RMK md = .ok none) → reportHour md = now → False := by
        rintro md hn rfl
        have := reads_single (remark_reads (md := md) hg)
        rw [hn _ (recognise_shape this).1] at this
        cases this
      cases now with
      | none => exact hm {} (by intro i hi; interval_cases i <;> rfl) rfl
      | some h => exact hm { reportTime := some ⟨none, h, 0⟩ } (by intro i hi; interval_cases i <;> rfl) rfl)
    (by
      have ha : ∀ now, Remark now [c!"AO2"] (.keyword ⟨.AO2⟩) :=
        fun now => .keyword ⟨[.RMK], by simp [keywords], by decide⟩
      refine fun _ => ⟨fun now g hg => ?_, fun hl => ?_⟩
      · obtain ⟨md, rfl⟩ := hour_exists now
        exact not_continued (md := md) (remark_reads (ha _)) (by simp [ambiguous]) (fun g' e => by cases e) g hg
      · obtain ⟨g, hg, hn⟩ := lacking_group (md := {}) hl
        rcases remark_unique (remark_reads (md := {}) (ha _)) hg with rfl | ⟨w, hw, e⟩
        · exact hn _ _ rfl rfl
        · obtain rfl := List.singleton_inj.mp e
          simp [ambiguous] at hw)
  exact ⟨r, r', h1, h7, h8, h9⟩

end

end Metaf.Props
