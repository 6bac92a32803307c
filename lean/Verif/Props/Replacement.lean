import Verif.Proofs.Replacement
import Verif.Props.Insertion

/-!
C139: groups of the body removed or replaced by others change nothing else.
-/

set_option linter.unusedSectionVars false

namespace Metaf.Props

open Metaf Metaf.Spec

variable [FloatIeee]

/-- The report with some groups replaced, from what follows the header. -/
theorem report_replace {s s' : Str} {wm wb v : List Str} {limit limit' : Nat} {r : ParseResult}
    {ga gm gv gb : List GroupInfo} (hs : Groups s (ga.flatMap (fun x => words x.rawString) ++ (wm ++ wb)))
    (hs' : Groups s' (ga.flatMap (fun x => words x.rawString) ++ (v ++ wb))) (hr : Result s limit r)
    (he : r.reportMetadata.error = .NONE) (hn : r.reportMetadata.isNil = false)
    (hc : r.reportMetadata.isCancelled = false) (hg : r.groups = ga ++ (gm ++ gb))
    (hx : ∃ x ∈ ga, words x.rawString ≠ [] ∧ OutsideHeader x)
    (hl : (ga.flatMap (fun x => words x.rawString) ++ (v ++ wb)).length + 1 < limit')
    (step : ∀ {now ws n ga'}, (∃ hs, ga = headerEntries hs ++ ga' ∧ now = headerHour hs ∧
        ((∃ ty, FullHeader ty hs) ∨ Opening .time .UNKNOWN hs)) →
      ga' ≠ [] →
      BodyMeaning r.reportMetadata.type now ws n (ga' ++ (gm ++ gb)) .NONE → hasWord .NIL (ga' ++ (gm ++ gb)) = false →
      hasWord .CNL (ga' ++ (gm ++ gb)) = false → (∀ w ∈ ws, Parser.Tok w) →
      ws = ga'.flatMap (fun x => words x.rawString) ++ (wm ++ wb) →
      ∃ n', n' ≤ (ga'.flatMap (fun x => words x.rawString) ++ (v ++ wb)).length ∧
        BodyMeaning r.reportMetadata.type now (ga'.flatMap (fun x => words x.rawString) ++ (v ++ wb)) n'
          (ga' ++ (gv ++ gb)) .NONE) :
    ∃ r', Result s' limit' r' ∧ r'.groups = ga ++ (gv ++ gb) ∧ r'.reportMetadata.type = r.reportMetadata.type ∧
      r'.reportMetadata.error = .NONE := by
  have ho := outcome_of hs hr
  have hrec := C85_record hr
  have htok : ∀ w ∈ ga.flatMap (fun x => words x.rawString) ++ (wm ++ wb), Parser.Tok w := by
    intro w hw
    rw [← tokens_of_groups hs] at hw
    exact Parser.tok_of_mem hw
  rw [he] at ho hrec
  rw [hrec] at hn hc
  have hn : hasWord .NIL r.groups = false := hn
  have hc : hasWord .CNL r.groups = false := hc
  clear hrec he hr
  rw [hg] at ho hn hc
  clear hg
  generalize r.reportMetadata.type = ty at ho step ⊢
  suffices ∃ n, Meaning (ga.flatMap (fun x => words x.rawString) ++ (v ++ wb)) n (ga ++ (gv ++ gb)) ty .NONE ∧
      n ≤ (ga.flatMap (fun x => words x.rawString) ++ (v ++ wb)).length + 1 by
    obtain ⟨n, h1, h2⟩ := this
    obtain ⟨r', a, b, c, d⟩ := (C84_outcome hs').mpr (Outcome.within h1 (limit := limit') (by omega))
    exact ⟨r', a, b, c, d⟩
  have split : ∀ {hs : List (Str × Group)} {gs : List GroupInfo} {ws : List Str},
      (∃ ty, FullHeader ty hs) ∨ Opening .time .UNKNOWN hs → ga ++ (gm ++ gb) = headerEntries hs ++ gs →
      ga.flatMap (fun x => words x.rawString) ++ (wm ++ wb) = wordsOf hs ++ ws →
      ∃ ga', ga = headerEntries hs ++ ga' ∧ gs = ga' ++ (gm ++ gb) ∧ ga'.flatMap (fun x => words x.rawString) ≠ [] ∧
        ws = ga'.flatMap (fun x => words x.rawString) ++ (wm ++ wb) ∧
        ga.flatMap (fun x => words x.rawString) = wordsOf hs ++ ga'.flatMap (fun x => words x.rawString) := by
    intro hs gs ws hh e e'
    obtain ⟨x, hx, hx1, hx2⟩ := hx
    have := hx2 hs hh
    rcases List.append_eq_append_iff.mp e with ⟨c, h1, h2⟩ | ⟨c, h1, h2⟩
    · exact absurd (by rw [h1]; exact List.mem_append_left _ hx) this
    · have hw : (headerEntries hs).flatMap (fun x => words x.rawString) = wordsOf hs := by
        refine header_words fun w hw => htok w ?_
        rw [e']
        exact List.mem_append_left _ hw
      have e2 : ga.flatMap (fun x => words x.rawString) = wordsOf hs ++ c.flatMap (fun x => words x.rawString) := by
        rw [h1, List.flatMap_append, hw]
      refine ⟨c, h1, h2, ?_, ?_, e2⟩
      · intro h
        have hm : x ∈ c := by
          rw [h1] at hx
          exact (List.mem_append.mp hx).resolve_left this
        exact hx1 (List.flatMap_eq_nil_iff.mp h x hm)
      · rw [e2, List.append_assoc] at e'
        exact (List.append_cancel_left e').symm
  generalize hx : ReportError.NONE = e at ho
  generalize hy : ga ++ (gm ++ gb) = gs at ho
  generalize hz : ga.flatMap (fun x => words x.rawString) ++ (wm ++ wb) = ws at ho
  have noWord : ∀ {k : KeywordType} {a b : List GroupInfo}, hasWord k (a ++ b) = false → hasWord k b = false := by
    intro k a b h
    simp only [hasWord, List.any_append, Bool.or_eq_false_iff] at h ⊢
    exact h.2
  cases ho with
  | tooLarge => cases hx
  | third => cases hx
  | within h _ =>
    cases h with
    | empty => cases hx
    | cut => cases hx
    | wrong _ h => subst hx; cases h
    | nil => rw [hy] at hn; simp [hasWord] at hn
    | @typed _ hs ws n gs _ hf hb =>
      subst hx
      obtain ⟨ga', h1, h2, h3, h4, h5⟩ := split (Or.inl ⟨_, hf⟩) hy hz
      subst h2
      rw [hy] at hn hc
      obtain ⟨n', hl, this⟩ := step ⟨_, h1, rfl, Or.inl ⟨_, hf⟩⟩ (by rintro rfl; exact h3 rfl) hb (noWord hn) (noWord hc)
        (fun w hw => htok w (by rw [hz]; exact List.mem_append_right _ hw)) h4
      have hm := Meaning.typed hf this
      refine ⟨hs.length + n', ?_, ?_⟩
      · rw [h5, h1, List.append_assoc, List.append_assoc]
        exact hm
      · rw [h5]
        simp only [List.length_append, wordsOf, List.length_map] at hl ⊢
        omega
    | @untyped hs w ws n gs _ hf hp hnil hb =>
      subst hx
      obtain ⟨ga', h1, h2, h3, h4, h5⟩ := split (Or.inr hf) hy hz
      subst h2
      rw [hy] at hn hc
      obtain ⟨n', hl, this⟩ := step ⟨_, h1, rfl, Or.inr hf⟩ (by rintro rfl; exact h3 rfl) hb (noWord hn) (noWord hc)
        (fun w hw => htok w (by rw [hz]; exact List.mem_append_right _ hw)) h4
      obtain ⟨a, l, e⟩ := List.exists_cons_of_ne_nil h3
      rw [e, List.cons_append] at h4
      injection h4 with h4 _
      subst h4
      rw [e] at this h5 hl
      have hm := Meaning.untyped hf hp hnil this
      refine ⟨hs.length + 1 + n', ?_, ?_⟩
      · rw [h5, h1, List.append_assoc, List.append_assoc]
        exact hm
      · rw [h5]
        simp only [List.length_append, wordsOf, List.length_map, List.length_cons] at hl ⊢
        omega

/-- C139. Groups of the body replaced. Let a report be read without error, and let it be neither missing nor
cancelled. Let `gm` be some groups of its body, `ga` those before and `gb` those after them, where the last
group of `ga` is in the body and not unknown. Let `v` be any other words, without the words which end the body,
and `iv` the way in which words `v` of the body are divided into groups. Suppose that no group goes on over the
ends: the first word after `ga` does not continue its last group, the first word after `v` does not continue
the last group of `iv`, and unknown words are apart. Then the report with `v` instead of the words of `gm` has
the groups `ga`, those of `iv`, and `gb`. Its type is the same and there is no error. -/
theorem C139_replaced {s s' : Str} {wb v : List Str} {limit limit' : Nat} {r : ParseResult}
    {ga gm gb : List GroupInfo} {iv : List (Group × List Str)} {x : GroupInfo}
    (hs : Groups s (ga.flatMap (fun x => words x.rawString) ++ (gm.flatMap (fun x => words x.rawString) ++ wb)))
    (hs' : Groups s' (ga.flatMap (fun x => words x.rawString) ++ (v ++ wb))) (hr : Result s limit r)
    (he : r.reportMetadata.error = .NONE) (hn : r.reportMetadata.isNil = false)
    (hc : r.reportMetadata.isCancelled = false) (hg : r.groups = ga ++ (gm ++ gb))
    (hl : (ga.flatMap (fun x => words x.rawString) ++ (v ++ wb)).length + 1 < limit')
    (hx : ga.getLast? = some x) (hxp : x.reportPart = bodyPart r.reportMetadata.type) (hxk : Known x)
    (hrm : ∀ y ∈ ga ++ gm, y.group ≠ .keyword ⟨.RMK⟩)
    (hm : (∀ y, gm.getLast? = some y → Known y) ∨ ∀ y, gb.head? = some y → Known y)
    (hd : Divided (bodyPart r.reportMetadata.type) v iv)
    (hst : ∀ w ∈ v, w ∉ stops (bodyPart r.reportMetadata.type))
    (hv : (∀ it, iv.getLast? = some it → ∀ u, it.1 ≠ .unknown u) ∨ ∀ y, gb.head? = some y → Known y)
    (hbefore : ∀ w, (v ++ wb).head? = some w →
      ∀ g', ¬ Written (bodyPart r.reportMetadata.type) (words x.rawString ++ [w]) g')
    (hafter : ∀ it, iv.getLast? = some it → (∃ g, Written (bodyPart r.reportMetadata.type) it.2 g) →
      ∀ w, wb.head? = some w → ∀ g', ¬ Written (bodyPart r.reportMetadata.type) (it.2 ++ [w]) g') :
    ∃ r', Result s' limit' r' ∧ r'.groups = ga ++ (entries (bodyPart r.reportMetadata.type) iv ++ gb) ∧
      r'.reportMetadata.type = r.reportMetadata.type ∧ r'.reportMetadata.error = .NONE := by
  have hxm := List.mem_of_getLast? hx
  have hxb : x.reportPart = .METAR ∨ x.reportPart = .TAF := by rw [hxp]; exact bodyPart_cases _
  have hv' : KeptApart (entries (bodyPart r.reportMetadata.type) iv) gb := by
    refine hv.imp_left fun h => ?_
    cases hi : iv.getLast? with
    | none =>
      rw [List.getLast?_eq_none_iff.mp hi]
      intro y hy
      cases hy
    | some it =>
      obtain ⟨iv', hiv⟩ := List.getLast?_eq_some_iff.mp hi
      obtain ⟨g, ws⟩ := it
      have hk := h _ hi
      intro y hy
      rw [hiv, entries_append_right] at hy
      · rw [entries_known_first (Or.inl hk)] at hy
        rw [List.getLast?_append] at hy
        cases hy
        exact hk
      · rw [entries_known_first (Or.inl hk)]
        intro z hz
        cases hz
        exact hk
  refine report_replace hs hs' hr he hn hc hg ⟨x, hxm, ?_, body_outside ?_⟩ hl ?_
  · exact said_words (C75_said hr x (by rw [hg]; exact List.mem_append_left _ hxm)) hxb hxk
  · rcases hxb with h | h <;> rw [h] <;> exact nofun
  · rintro now ws n ga' ⟨hd', e, -⟩ hne hb hn hc ht hws
    have hlast : ga'.getLast? = some x := by
      rw [e, List.getLast?_append] at hx
      rw [List.getLast?_eq_some_getLast hne] at hx ⊢
      exact hx
    refine body_replace hb hn hc ht hws hlast hxk ?_ hm hd hv' hst hbefore hafter
    intro y hy
    refine hrm y ?_
    rw [e, List.append_assoc]
    exact List.mem_append_right _ hy

/-- C139. Groups of the body removed. Under the same conditions on the report and on `ga`, `gm` and `gb`: if the
first word after the words of `gm` does not continue the last group of `ga`, then the report without the words
of `gm` has the groups `ga` and `gb`. Its type is the same and there is no error. -/
theorem C139_removed {s s' : Str} {wb : List Str} {limit limit' : Nat} {r : ParseResult}
    {ga gm gb : List GroupInfo} {x : GroupInfo}
    (hs : Groups s (ga.flatMap (fun x => words x.rawString) ++ (gm.flatMap (fun x => words x.rawString) ++ wb)))
    (hs' : Groups s' (ga.flatMap (fun x => words x.rawString) ++ wb)) (hr : Result s limit r)
    (he : r.reportMetadata.error = .NONE) (hn : r.reportMetadata.isNil = false)
    (hc : r.reportMetadata.isCancelled = false) (hg : r.groups = ga ++ (gm ++ gb))
    (hl : (ga.flatMap (fun x => words x.rawString) ++ wb).length + 1 < limit')
    (hx : ga.getLast? = some x) (hxp : x.reportPart = bodyPart r.reportMetadata.type) (hxk : Known x)
    (hrm : ∀ y ∈ ga ++ gm, y.group ≠ .keyword ⟨.RMK⟩)
    (hm : (∀ y, gm.getLast? = some y → Known y) ∨ ∀ y, gb.head? = some y → Known y)
    (hbefore : ∀ w, wb.head? = some w →
      ∀ g', ¬ Written (bodyPart r.reportMetadata.type) (words x.rawString ++ [w]) g') :
    ∃ r', Result s' limit' r' ∧ r'.groups = ga ++ gb ∧ r'.reportMetadata.type = r.reportMetadata.type ∧
      r'.reportMetadata.error = .NONE :=
  C139_replaced (v := []) (iv := []) hs hs' hr he hn hc hg hl hx hxp hxk hrm hm .nil (fun _ h => by cases h)
    (Or.inl fun _ h => by cases h) hbefore fun _ h => by cases h

/-- C139. The remarks removed. Let a report be read without error, and let it be neither missing nor cancelled.
Let `ga` be its groups before the first group of `RMK`, with some word after the header among them. Then the
report of the words before this `RMK` has the groups `ga`. Its type is the same and there is no error. -/
theorem C139_remarks {s s' : Str} {limit limit' : Nat} {r : ParseResult}
    {ga gm : List GroupInfo} {y : GroupInfo}
    (hs' : Groups s' (ga.flatMap (fun x => words x.rawString))) (hr : Result s limit r)
    (he : r.reportMetadata.error = .NONE) (hn : r.reportMetadata.isNil = false)
    (hc : r.reportMetadata.isCancelled = false) (hg : r.groups = ga ++ y :: gm)
    (hl : (ga.flatMap (fun x => words x.rawString)).length + 1 < limit')
    (hx : ∃ x ∈ ga, x.reportPart ≠ .HEADER ∧ words x.rawString ≠ [])
    (hy : y.group = .keyword ⟨.RMK⟩) (hrm : ∀ x ∈ ga, x.group ≠ .keyword ⟨.RMK⟩) :
    ∃ r', Result s' limit' r' ∧ r'.groups = ga ∧ r'.reportMetadata.type = r.reportMetadata.type ∧
      r'.reportMetadata.error = .NONE := by
  obtain ⟨x, hxm, hxp, hxw⟩ := hx
  obtain ⟨k, h1, h2, -, -⟩ := C04_no_text_lost s limit _ r (groups_tokens s) hr
  rw [h2 (Or.inl he), List.take_length, hg, List.flatMap_append] at h1
  have hs : Groups s (ga.flatMap (fun x => words x.rawString) ++ ((y :: gm).flatMap (fun x => words x.rawString) ++ [])) := by
    rw [List.append_nil, h1]
    exact groups_tokens s
  have := report_replace (gm := y :: gm) (gb := []) (v := []) (gv := []) hs (by rw [List.append_nil, List.append_nil]; exact hs')
    hr he hn hc (by rw [List.append_nil]; exact hg) ⟨x, hxm, hxw, body_outside hxp⟩
    (by rw [List.append_nil, List.append_nil]; exact hl) (by
      rintro now ws n ga' ⟨hd, e, -⟩ hne hb hn hc ht hws
      refine ⟨_, Nat.le_refl _, ?_⟩
      rw [List.append_nil, List.append_nil, List.append_nil]
      rw [List.append_nil] at hb hn hc hws
      have hga : ∀ x ∈ ga', x.group ≠ .keyword ⟨.RMK⟩ := fun x hx => hrm x (by rw [e]; exact List.mem_append_right _ hx)
      generalize hx' : ReportError.NONE = e at hb
      generalize hz : ga' ++ y :: gm = gs at hb
      cases hb with
      | nothing => cases hx'
      | nil => rw [hz] at hn; simp [hasWord] at hn
      | cnl => rw [hz] at hc; simp [hasWord] at hc
      | cnlMetar => cases hx'
      | body h1 h2 h3 => exact absurd hy (no_rmk h3 h2 y (by rw [← hz]; simp))
      | ended => cases hx'
      | maintenance => cases hx'
      | @remarks us rmk items m gs _ h1 h2 h3 =>
        have hee : ga' = entries (bodyPart r.reportMetadata.type) items := by
          rcases List.append_eq_append_iff.mp hz with ⟨c, hc1, hc2⟩ | ⟨c, hc1, hc2⟩
          · cases c with
            | nil => rw [hc1, List.append_nil]
            | cons z c =>
              rw [List.cons_append] at hc2
              injection hc2 with hc2 _
              exact absurd hy (no_rmk h2 h1 y (by rw [hc1, hc2]; simp))
          · cases c with
            | nil => rw [hc1, List.append_nil]
            | cons z c =>
              rw [List.cons_append] at hc2
              injection hc2 with hc2 _
              exact absurd (by rw [← hc2]) (hga z (by rw [hc1]; simp))
        have hwords : ga'.flatMap (fun x => words x.rawString) = us := by
          rw [hee, entries_words, ← divided_words h2]
          intro it hi w hw
          refine ht w (List.mem_append_left _ ?_)
          rw [divided_words h2]
          exact List.mem_flatMap.mpr ⟨it, hi, hw⟩
        rw [hwords, hee, List.append_nil, ← hx']
        refine .body ?_ h1 h2
        rintro rfl
        have hp : isBody (bodyPart r.reportMetadata.type) := bodyPart_cases _
        rw [divided_nil hp h2] at hee
        exact hne hee)
  rw [List.append_nil, List.append_nil] at this
  exact this

/-- C139. An unknown group of the body removed. Under the same conditions, the metadata is also the same. -/
theorem C139_unknown {s s' : Str} {wb : List Str} {limit limit' : Nat} {r : ParseResult}
    {ga gb : List GroupInfo} {x : GroupInfo} {u : Str}
    (hs : Groups s (ga.flatMap (fun x => words x.rawString) ++ (words u ++ wb)))
    (hs' : Groups s' (ga.flatMap (fun x => words x.rawString) ++ wb)) (hr : Result s limit r)
    (he : r.reportMetadata.error = .NONE) (hn : r.reportMetadata.isNil = false)
    (hc : r.reportMetadata.isCancelled = false)
    (hg : r.groups = ga ++ ⟨.unknown {}, bodyPart r.reportMetadata.type, u⟩ :: gb)
    (hl : (ga.flatMap (fun x => words x.rawString) ++ wb).length + 1 < limit')
    (hx : ga.getLast? = some x) (hxp : x.reportPart = bodyPart r.reportMetadata.type) (hxk : Known x)
    (hrm : ∀ y ∈ ga, y.group ≠ .keyword ⟨.RMK⟩) (hb : ∀ y, gb.head? = some y → Known y)
    (hbefore : ∀ w, wb.head? = some w →
      ∀ g', ¬ Written (bodyPart r.reportMetadata.type) (words x.rawString ++ [w]) g') :
    ∃ r', Result s' limit' r' ∧ r'.groups = ga ++ gb ∧ r'.reportMetadata = r.reportMetadata := by
  obtain ⟨r', h1, h2, h3, h4⟩ := C139_removed (limit' := limit') (gb := gb)
    (gm := [⟨.unknown {}, bodyPart r.reportMetadata.type, u⟩])
    (by rw [List.flatMap_singleton]; exact hs) hs' hr he hn hc hg hl hx hxp hxk (by
      intro y hy
      rcases List.mem_append.mp hy with hy | hy
      · exact hrm y hy
      · rw [List.mem_singleton.mp hy]
        exact nofun) (Or.inr hb) hbefore
  refine ⟨r', h1, h2, ?_⟩
  have hm := C85_record hr
  have hm' := C85_record h1
  rw [hg, record_unknown, he] at hm
  rw [h3, h4, h2] at hm'
  exact hm'.trans hm.symm

end Metaf.Props

namespace Metaf.Props

open Metaf Metaf.Spec

section
attribute [local instance] ieee

set_option maxRecDepth 4000 in
/-- The group `NOSIG` removed. -/
example : ∃ r r', Result c!"METAR ULLI 112200Z 24005MPS NOSIG RMK AO2 SLP123" 200 r ∧
    Result c!"METAR ULLI 112200Z 24005MPS RMK AO2 SLP123" 200 r' ∧
    r'.groups = r.groups.take 4 ++ r.groups.drop 5 := by
  obtain ⟨r, h1, h2, h3, h4, h5, h6⟩ := example_report
  obtain ⟨r', h7, h8, -⟩ := C139_removed (s' := c!"METAR ULLI 112200Z 24005MPS RMK AO2 SLP123")
    (wb := [c!"RMK", c!"AO2", c!"SLP123"]) (limit' := 200)
    (ga := r.groups.take 4) (gm := (r.groups.drop 4).take 1) (gb := r.groups.drop 5)
    (x := ⟨.wind (WindText.mk none (.tens 24) (some 5) none .METERS_PER_SECOND).group, .METAR, c!"24005MPS"⟩)
    (by rw [h6]; exact groups_tokens c!"METAR ULLI 112200Z 24005MPS NOSIG RMK AO2 SLP123")
    (by rw [h6]; exact groups_tokens c!"METAR ULLI 112200Z 24005MPS RMK AO2 SLP123") h1 h2 h3 h4
    (by rw [h6]; rfl) (by rw [h6]; exact Nat.le_of_ble_eq_true rfl) (by rw [h6]; rfl)
    (by rw [h5]; rfl) nofun (by rw [h6]; simp) (Or.inl (by rw [h6]; rintro y hy; cases hy; exact nofun))
    (by rw [h5]; rintro w hw; cases hw; exact apart example_wind rfl)
  exact ⟨r, r', h1, h7, h8⟩

set_option maxRecDepth 4000 in
/-- The group `NOSIG` replaced by the groups `CAVOK` and `XYZ`, of which the second is unknown. -/
example : ∃ r r', Result c!"METAR ULLI 112200Z 24005MPS NOSIG RMK AO2 SLP123" 200 r ∧
    Result c!"METAR ULLI 112200Z 24005MPS CAVOK XYZ RMK AO2 SLP123" 200 r' ∧
    r'.groups = r.groups.take 4 ++ [⟨.keyword ⟨.CAVOK⟩, .METAR, c!"CAVOK"⟩, ⟨.unknown {}, .METAR, c!"XYZ"⟩] ++
      r.groups.drop 5 := by
  obtain ⟨r, h1, h2, h3, h4, h5, h6⟩ := example_report
  have hv : Written .METAR [c!"CAVOK"] (.keyword ⟨.CAVOK⟩) :=
    .keyword ⟨[.METAR, .TAF], by simp [keywords], by decide⟩
  have hu : ∀ g, ¬ Written .METAR [c!"XYZ"] g := unwritten (by intro i hi; interval_cases i <;> rfl)
  obtain ⟨r', h7, h8, -⟩ := C139_replaced (s' := c!"METAR ULLI 112200Z 24005MPS CAVOK XYZ RMK AO2 SLP123")
    (wb := [c!"RMK", c!"AO2", c!"SLP123"]) (v := [c!"CAVOK", c!"XYZ"]) (limit' := 200)
    (iv := [(.keyword ⟨.CAVOK⟩, [c!"CAVOK"]), (.unknown {}, [c!"XYZ"])])
    (ga := r.groups.take 4) (gm := (r.groups.drop 4).take 1) (gb := r.groups.drop 5)
    (x := ⟨.wind (WindText.mk none (.tens 24) (some 5) none .METERS_PER_SECOND).group, .METAR, c!"24005MPS"⟩)
    (by rw [h6]; exact groups_tokens c!"METAR ULLI 112200Z 24005MPS NOSIG RMK AO2 SLP123")
    (by rw [h6]; exact groups_tokens c!"METAR ULLI 112200Z 24005MPS CAVOK XYZ RMK AO2 SLP123") h1 h2 h3 h4
    (by rw [h6]; rfl) (by rw [h6]; exact Nat.le_of_ble_eq_true rfl) (by rw [h6]; rfl)
    (by rw [h5]; rfl) nofun (by rw [h6]; simp) (Or.inl (by rw [h6]; rintro y hy; cases hy; exact nofun))
    (by
      rw [h5]
      exact .group (ws := [c!"CAVOK"]) hv nofun (by rintro w hw; cases hw; exact apart hv rfl)
        (.unknown hu .nil))
    (by rw [h5]; decide)
    (Or.inr (by rw [h6]; rintro y hy; cases hy; exact nofun))
    (by rw [h5]; rintro w hw; cases hw; exact apart example_wind rfl)
    (by
      rw [h5]
      rintro it hi ⟨g, hg⟩
      cases hi
      exact absurd hg (hu g))
  rw [h5] at h8
  refine ⟨r, r', h1, h7, ?_⟩
  rw [h8, List.append_assoc]
  rfl

set_option maxRecDepth 4000 in
/-- An unknown word removed. -/
example : ∃ r r', Result c!"METAR ULLI 112200Z 24005MPS XYZ NOSIG" 200 r ∧
    Result c!"METAR ULLI 112200Z 24005MPS NOSIG" 200 r' ∧ r'.groups = r.groups.take 4 ++ r.groups.drop 5 ∧
    r'.reportMetadata = r.reportMetadata := by
  have h : ∃ r, Result c!"METAR ULLI 112200Z 24005MPS XYZ NOSIG" 200 r ∧
    r.reportMetadata.error = .NONE ∧ r.reportMetadata.isNil = false ∧ r.reportMetadata.isCancelled = false ∧
    r.reportMetadata.type = .METAR ∧ r.groups =
      [⟨.keyword ⟨.METAR⟩, .HEADER, c!"METAR"⟩, ⟨.location ⟨c!"ULLI"⟩, .HEADER, c!"ULLI"⟩,
       ⟨.reportTime ⟨⟨some 11, 22, 0⟩⟩, .HEADER, c!"112200Z"⟩,
       ⟨.wind (WindText.mk none (.tens 24) (some 5) none .METERS_PER_SECOND).group, .METAR, c!"24005MPS"⟩,
       ⟨.unknown {}, .METAR, c!"XYZ"⟩,
       ⟨.trend (trendMeaning [.nosig]), .METAR, c!"NOSIG"⟩] := by
    refine ⟨{ reportMetadata := _, groups := _ }, rfl, ?_⟩
    decide +kernel
  obtain ⟨r, h1, h2, h3, h4, h5, h6⟩ := h
  obtain ⟨r', h7, h8, h9⟩ := C139_unknown (s' := c!"METAR ULLI 112200Z 24005MPS NOSIG")
    (wb := [c!"NOSIG"]) (limit' := 200) (u := c!"XYZ")
    (ga := r.groups.take 4) (gb := r.groups.drop 5)
    (x := ⟨.wind (WindText.mk none (.tens 24) (some 5) none .METERS_PER_SECOND).group, .METAR, c!"24005MPS"⟩)
    (by rw [h6]; exact groups_tokens c!"METAR ULLI 112200Z 24005MPS XYZ NOSIG")
    (by rw [h6]; exact groups_tokens c!"METAR ULLI 112200Z 24005MPS NOSIG") h1 h2 h3 h4
    (by rw [h5, h6]; rfl) (by rw [h6]; exact Nat.le_of_ble_eq_true rfl) (by rw [h6]; rfl)
    (by rw [h5]; rfl) nofun (by rw [h6]; simp) (by rw [h6]; rintro y hy; cases hy; exact nofun)
    (by rw [h5]; rintro w hw; cases hw; exact apart example_wind rfl)
  exact ⟨r, r', h1, h7, h8, h9⟩

set_option maxRecDepth 4000 in
/-- The remarks removed. -/
example : ∃ r r', Result c!"METAR ULLI 112200Z 24005MPS NOSIG RMK AO2 SLP123" 200 r ∧
    Result c!"METAR ULLI 112200Z 24005MPS NOSIG" 200 r' ∧ r'.groups = r.groups.take 5 := by
  obtain ⟨r, h1, h2, h3, h4, h5, h6⟩ := example_report
  obtain ⟨r', h7, h8, -⟩ := C139_remarks (s' := c!"METAR ULLI 112200Z 24005MPS NOSIG") (limit' := 200)
    (ga := r.groups.take 5) (y := ⟨.keyword ⟨.RMK⟩, .METAR, c!"RMK"⟩) (gm := r.groups.drop 6)
    (by rw [h6]; exact groups_tokens c!"METAR ULLI 112200Z 24005MPS NOSIG") h1 h2 h3 h4
    (by rw [h6]; rfl) (by rw [h6]; exact Nat.le_of_ble_eq_true rfl)
    ⟨⟨.trend (trendMeaning [.nosig]), .METAR, c!"NOSIG"⟩, by rw [h6]; simp, nofun, by decide⟩ rfl (by rw [h6]; simp)
  exact ⟨r, r', h1, h7, h8⟩

end

end Metaf.Props
