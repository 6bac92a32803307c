import Verif.Proofs.RemarkReplacement
import Verif.Props.Replacement

/-!
C143: remarks removed, replaced or added change nothing else.
-/

set_option linter.unusedSectionVars false

namespace Metaf.Props

open Metaf Metaf.Spec

variable [FloatIeee]

/-- C143. Remarks replaced. Let a report be read without error, and let it be neither missing nor cancelled. Let
`gm` be some of its remarks, `ga` the groups before and `gb` those after them, where the group of `RMK` is in
`ga` and the last group of `ga` has a text and is not unknown. Let `v` be any other words, without the
maintenance indicator if the report is a TAF, and `iv` the way in which words `v` of the remarks are divided
into groups in a report made at this hour. Suppose that no remark goes on over the ends: if the last group of
`ga` is a remark, the first word after it does not continue it and it needs no other word; the first word after
`v` does not continue the last remark of `iv`, and this remark needs a continuation before it only if it needs
one at the end; unknown words are apart. Then the report with `v` instead of the words of `gm` has the groups
`ga`, those of `iv`, and `gb`. Its type is the same and there is no error. With `gm` empty this is about remarks
added at the place. -/
theorem C143_replaced {s s' : Str} {wb v : List Str} {limit limit' : Nat} {r : ParseResult}
    {ga gm gb : List GroupInfo} {iv : List (Group × List Str)} {x : GroupInfo}
    (hs : Groups s (ga.flatMap (fun x => words x.rawString) ++ (gm.flatMap (fun x => words x.rawString) ++ wb)))
    (hs' : Groups s' (ga.flatMap (fun x => words x.rawString) ++ (v ++ wb))) (hr : Result s limit r)
    (he : r.reportMetadata.error = .NONE) (hn : r.reportMetadata.isNil = false)
    (hc : r.reportMetadata.isCancelled = false) (hg : r.groups = ga ++ (gm ++ gb))
    (hl : (ga.flatMap (fun x => words x.rawString) ++ (v ++ wb)).length + 1 < limit')
    (hrm : ∃ y ∈ ga, y.group = .keyword ⟨.RMK⟩)
    (hx : ga.getLast? = some x) (hxk : Known x) (hxw : words x.rawString ≠ [])
    (hm : (∀ y, gm.getLast? = some y → Known y ∧ words y.rawString ≠ []) ∨ ∀ y, gb.head? = some y → Known y)
    (hd : DividedRemarks (hourOf r) v iv) (hst : r.reportMetadata.type = .TAF → c!"$" ∉ v)
    (hv : (∀ it, iv.getLast? = some it → ∀ u, it.1 ≠ .unknown u) ∨ ∀ y, gb.head? = some y → Known y)
    (hbefore : x.reportPart = .RMK →
      (∀ w, (v ++ wb).head? = some w → ∀ g', ¬ Remark (hourOf r) (words x.rawString ++ [w]) g') ∧
      ¬ Lacking ((v ++ wb).headD []) (words x.rawString))
    (hafter : ∀ it, iv.getLast? = some it → (∃ g, Remark (hourOf r) it.2 g) →
      (∀ w, wb.head? = some w → ∀ g', ¬ Remark (hourOf r) (it.2 ++ [w]) g') ∧
      (Lacking (wb.headD []) it.2 ↔ Lacking [] it.2)) :
    ∃ r', Result s' limit' r' ∧ r'.groups = ga ++ (entries .RMK iv ++ gb) ∧
      r'.reportMetadata.type = r.reportMetadata.type ∧ r'.reportMetadata.error = .NONE := by
  obtain ⟨y, hym, hyg⟩ := hrm
  have hv' : KeptApart (entries .RMK iv) gb := by
    refine hv.imp_left fun h => ?_
    cases hi : iv.getLast? with
    | none =>
      rw [List.getLast?_eq_none_iff.mp hi]
      intro y hy
      cases hy
    | some it =>
      obtain ⟨iv', hiv⟩ := List.getLast?_eq_some_iff.mp hi
      obtain ⟨g, ws⟩ := it
      have hk := h _ hi
      intro y hy
      rw [hiv, entries_append_right] at hy
      · rw [entries_known_first (Or.inl hk), List.getLast?_append] at hy
        cases hy
        exact hk
      · rw [entries_known_first (Or.inl hk)]
        intro z hz
        cases hz
        exact hk
  refine report_replace hs hs' hr he hn hc hg ⟨y, hym,
    rmk_words (C75_said hr y (by rw [hg]; exact List.mem_append_left _ hym)) hyg, rmk_outside hyg⟩ hl ?_
  rintro now ws n ga' ⟨hd', e, enow, hh⟩ hne hb hn hc ht hws
  have hnow : hourOf r = now := by
    rw [enow]
    exact hour_of_header hr (gs := ga' ++ (gm ++ gb)) (by rw [hg, e, List.append_assoc]) hh (body_part hb)
  rw [hnow] at hd hbefore hafter
  have hlast : ga'.getLast? = some x := by
    rw [e, List.getLast?_append] at hx
    rw [List.getLast?_eq_some_getLast hne] at hx ⊢
    exact hx
  refine body_replace_remark hb hn hc ht hws hlast hxk hxw ⟨y, ?_, hyg⟩ hm hd hv' hst hbefore hafter
  rw [e] at hym
  exact (List.mem_append.mp hym).resolve_left (rmk_outside hyg _ hh)

/-- C143. Remarks removed. Under the same conditions on the report and on `ga`, `gm` and `gb`: the report without
the words of `gm` has the groups `ga` and `gb`. Its type is the same and there is no error. -/
theorem C143_removed {s s' : Str} {wb : List Str} {limit limit' : Nat} {r : ParseResult}
    {ga gm gb : List GroupInfo} {x : GroupInfo}
    (hs : Groups s (ga.flatMap (fun x => words x.rawString) ++ (gm.flatMap (fun x => words x.rawString) ++ wb)))
    (hs' : Groups s' (ga.flatMap (fun x => words x.rawString) ++ wb)) (hr : Result s limit r)
    (he : r.reportMetadata.error = .NONE) (hn : r.reportMetadata.isNil = false)
    (hc : r.reportMetadata.isCancelled = false) (hg : r.groups = ga ++ (gm ++ gb))
    (hl : (ga.flatMap (fun x => words x.rawString) ++ wb).length + 1 < limit')
    (hrm : ∃ y ∈ ga, y.group = .keyword ⟨.RMK⟩)
    (hx : ga.getLast? = some x) (hxk : Known x) (hxw : words x.rawString ≠ [])
    (hm : (∀ y, gm.getLast? = some y → Known y ∧ words y.rawString ≠ []) ∨ ∀ y, gb.head? = some y → Known y)
    (hbefore : x.reportPart = .RMK →
      (∀ w, wb.head? = some w → ∀ g', ¬ Remark (hourOf r) (words x.rawString ++ [w]) g') ∧
      ¬ Lacking (wb.headD []) (words x.rawString)) :
    ∃ r', Result s' limit' r' ∧ r'.groups = ga ++ gb ∧ r'.reportMetadata.type = r.reportMetadata.type ∧
      r'.reportMetadata.error = .NONE :=
  C143_replaced (v := []) (iv := []) hs hs' hr he hn hc hg hl hrm hx hxk hxw hm .nil (fun _ h => by cases h)
    (Or.inl fun _ h => by cases h) hbefore fun _ h => by cases h

/-- C143. An unknown remark removed. Under the same conditions, the metadata is also the same. -/
theorem C143_unknown {s s' : Str} {wb : List Str} {limit limit' : Nat} {r : ParseResult}
    {ga gb : List GroupInfo} {x : GroupInfo} {u : Str}
    (hs : Groups s (ga.flatMap (fun x => words x.rawString) ++ (words u ++ wb)))
    (hs' : Groups s' (ga.flatMap (fun x => words x.rawString) ++ wb)) (hr : Result s limit r)
    (he : r.reportMetadata.error = .NONE) (hn : r.reportMetadata.isNil = false)
    (hc : r.reportMetadata.isCancelled = false) (hg : r.groups = ga ++ ⟨.unknown {}, .RMK, u⟩ :: gb)
    (hl : (ga.flatMap (fun x => words x.rawString) ++ wb).length + 1 < limit')
    (hrm : ∃ y ∈ ga, y.group = .keyword ⟨.RMK⟩)
    (hx : ga.getLast? = some x) (hxk : Known x) (hxw : words x.rawString ≠ [])
    (hb : ∀ y, gb.head? = some y → Known y)
    (hbefore : x.reportPart = .RMK →
      (∀ w, wb.head? = some w → ∀ g', ¬ Remark (hourOf r) (words x.rawString ++ [w]) g') ∧
      ¬ Lacking (wb.headD []) (words x.rawString)) :
    ∃ r', Result s' limit' r' ∧ r'.groups = ga ++ gb ∧ r'.reportMetadata = r.reportMetadata := by
  obtain ⟨r', h1, h2, h3, h4⟩ := C143_removed (limit' := limit') (gb := gb) (gm := [⟨.unknown {}, .RMK, u⟩])
    (by rw [List.flatMap_singleton]; exact hs) hs' hr he hn hc hg hl hrm hx hxk hxw (Or.inr hb) hbefore
  refine ⟨r', h1, h2, ?_⟩
  have hm := C85_record hr
  have hm' := C85_record h1
  rw [hg, record_unknown, he] at hm
  rw [h3, h4, h2] at hm'
  exact hm'.trans hm.symm

end Metaf.Props

namespace Metaf.Props

open Metaf Metaf.Spec

section
attribute [local instance] ieee

/-- Nothing continues the remark `AO2`, and it needs nothing. -/
theorem example_ao2 (now : Option Nat) (w next : Str) :
    (∀ g, ¬ Remark now ([c!"AO2"] ++ [w]) g) ∧ ¬ Lacking next [c!"AO2"] := by
  have ha : ∀ now, Remark now [c!"AO2"] (.keyword ⟨.AO2⟩) :=
    fun now => .keyword ⟨[.RMK], by simp [keywords], by decide⟩
  refine ⟨fun g hg => ?_, fun hl => ?_⟩
  · obtain ⟨md, rfl⟩ := hour_exists now
    exact not_continued (md := md) (remark_reads (ha _)) (by simp [ambiguous]) (fun g' e => by cases e) g hg
  · obtain ⟨g, hg, hn⟩ := lacking_group (md := {}) hl
    rcases remark_unique (remark_reads (md := {}) (ha _)) hg with rfl | ⟨w, hw, e⟩
    · exact hn _ _ rfl rfl
    · obtain rfl := List.singleton_inj.mp e
      simp [ambiguous] at hw

set_option maxRecDepth 4000 in
/-- The remark `SLP123` removed. -/
example : ∃ r r', Result c!"METAR ULLI 112200Z 24005MPS NOSIG RMK AO2 SLP123" 200 r ∧
    Result c!"METAR ULLI 112200Z 24005MPS NOSIG RMK AO2" 200 r' ∧ r'.groups = r.groups.take 7 := by
  obtain ⟨r, h1, h2, h3, h4, h5, h6⟩ := example_report
  obtain ⟨r', h7, h8, -⟩ := C143_removed (s' := c!"METAR ULLI 112200Z 24005MPS NOSIG RMK AO2")
    (wb := []) (limit' := 200)
    (ga := r.groups.take 7) (gm := r.groups.drop 7) (gb := []) (x := ⟨.keyword ⟨.AO2⟩, .RMK, c!"AO2"⟩)
    (by rw [h6]; exact groups_tokens c!"METAR ULLI 112200Z 24005MPS NOSIG RMK AO2 SLP123")
    (by rw [h6]; exact groups_tokens c!"METAR ULLI 112200Z 24005MPS NOSIG RMK AO2") h1 h2 h3 h4
    (by rw [List.append_nil, List.take_append_drop]) (by rw [h6]; exact Nat.le_of_ble_eq_true rfl)
    ⟨⟨.keyword ⟨.RMK⟩, .METAR, c!"RMK"⟩, by rw [h6]; simp, rfl⟩ (by rw [h6]; rfl) nofun (by decide) (Or.inr fun y hy => by cases hy)
    (fun _ => ⟨fun w _ => (example_ao2 _ w []).1, (example_ao2 none [] _).2⟩)
  rw [List.append_nil] at h8
  exact ⟨r, r', h1, h7, h8⟩

set_option maxRecDepth 4000 in
/-- The remark `SLP123` replaced by the remarks `AO1` and `XYZ`, of which the second is unknown. -/
example : ∃ r r', Result c!"METAR ULLI 112200Z 24005MPS NOSIG RMK AO2 SLP123" 200 r ∧
    Result c!"METAR ULLI 112200Z 24005MPS NOSIG RMK AO2 AO1 XYZ" 200 r' ∧
    r'.groups = r.groups.take 7 ++ [⟨.keyword ⟨.AO1⟩, .RMK, c!"AO1"⟩, ⟨.unknown {}, .RMK, c!"XYZ"⟩] := by
  obtain ⟨r, h1, h2, h3, h4, h5, h6⟩ := example_report
  have ha : ∀ now, Remark now [c!"AO1"] (.keyword ⟨.AO1⟩) :=
    fun now => .keyword ⟨[.RMK], by simp [keywords], by decide⟩
  have hu : ∀ now g, ¬ Remark now [c!"XYZ"] g := by
    intro now g hg
    have hm : ∀ md : ReportMetadata, (∀ i < 21, recognise i c!"XYZ" .RMK md = .ok none) → reportHour md = now → False := by
      rintro md hn rfl
      have := reads_single (remark_reads (md := md) hg)
      rw [hn _ (recognise_shape this).1] at this
      cases this
    cases now with
    | none => exact hm {} (by intro i hi; interval_cases i <;> rfl) rfl
    | some h => exact hm { reportTime := some ⟨none, h, 0⟩ } (by intro i hi; interval_cases i <;> rfl) rfl
  have hd : ∀ now, DividedRemarks now [c!"AO1", c!"XYZ"] [(.keyword ⟨.AO1⟩, [c!"AO1"]), (.unknown {}, [c!"XYZ"])] := by
    intro now
    refine .group (ws := [c!"AO1"]) (g := .keyword ⟨.AO1⟩) (ha now) ?_ ?_ (.unknown (hu now) .nil)
    · intro w _ g hg
      obtain ⟨md, rfl⟩ := hour_exists now
      exact not_continued (md := md) (remark_reads (ha _)) (by simp [ambiguous]) (fun g' e => by cases e) g hg
    · intro hl
      obtain ⟨g, hg, hn⟩ := lacking_group (md := {}) hl
      rcases remark_unique (remark_reads (md := {}) (ha _)) hg with rfl | ⟨w, hw, e⟩
      · exact hn _ _ rfl rfl
      · obtain rfl := List.singleton_inj.mp e
        simp [ambiguous] at hw
  obtain ⟨r', h7, h8, -⟩ := C143_replaced (s' := c!"METAR ULLI 112200Z 24005MPS NOSIG RMK AO2 AO1 XYZ")
    (wb := []) (v := [c!"AO1", c!"XYZ"]) (limit' := 200)
    (ga := r.groups.take 7) (gm := r.groups.drop 7) (gb := []) (x := ⟨.keyword ⟨.AO2⟩, .RMK, c!"AO2"⟩)
    (by rw [h6]; exact groups_tokens c!"METAR ULLI 112200Z 24005MPS NOSIG RMK AO2 SLP123")
    (by rw [h6]; exact groups_tokens c!"METAR ULLI 112200Z 24005MPS NOSIG RMK AO2 AO1 XYZ") h1 h2 h3 h4
    (by rw [List.append_nil, List.take_append_drop]) (by rw [h6]; exact Nat.le_of_ble_eq_true rfl)
    ⟨⟨.keyword ⟨.RMK⟩, .METAR, c!"RMK"⟩, by rw [h6]; simp, rfl⟩ (by rw [h6]; rfl) nofun (by decide) (Or.inr fun y hy => by cases hy)
    (hd _) (by rw [h5]; exact nofun) (Or.inr fun y hy => by cases hy)
    (fun _ => ⟨fun w _ => (example_ao2 _ w []).1, (example_ao2 none [] _).2⟩)
    (by
      rintro it hi ⟨g, hg⟩
      cases hi
      exact absurd hg (hu _ g))
  refine ⟨r, r', h1, h7, ?_⟩
  rw [h8]
  rfl

set_option maxRecDepth 4000 in
/-- An unknown word removed from the remarks. -/
example : ∃ r r', Result c!"METAR ULLI 112200Z 24005MPS RMK AO2 XYZ SLP123" 200 r ∧
    Result c!"METAR ULLI 112200Z 24005MPS RMK AO2 SLP123" 200 r' ∧ r'.groups = r.groups.take 6 ++ r.groups.drop 7 ∧
    r'.reportMetadata = r.reportMetadata := by
  have h : ∃ r, Result c!"METAR ULLI 112200Z 24005MPS RMK AO2 XYZ SLP123" 200 r ∧
    r.reportMetadata.error = .NONE ∧ r.reportMetadata.isNil = false ∧ r.reportMetadata.isCancelled = false ∧
    r.groups =
      [⟨.keyword ⟨.METAR⟩, .HEADER, c!"METAR"⟩, ⟨.location ⟨c!"ULLI"⟩, .HEADER, c!"ULLI"⟩,
       ⟨.reportTime ⟨⟨some 11, 22, 0⟩⟩, .HEADER, c!"112200Z"⟩,
       ⟨.wind (WindText.mk none (.tens 24) (some 5) none .METERS_PER_SECOND).group, .METAR, c!"24005MPS"⟩,
       ⟨.keyword ⟨.RMK⟩, .METAR, c!"RMK"⟩, ⟨.keyword ⟨.AO2⟩, .RMK, c!"AO2"⟩, ⟨.unknown {}, .RMK, c!"XYZ"⟩,
       ⟨.pressure ⟨.OBSERVED_SLP, ⟨some (slpOf 123), .HECTOPASCAL⟩, false⟩, .RMK, c!"SLP123"⟩] := by
    refine ⟨{ reportMetadata := _, groups := _ }, rfl, ?_⟩
    decide +kernel
  obtain ⟨r, h1, h2, h3, h4, h6⟩ := h
  obtain ⟨r', h7, h8, h9⟩ := C143_unknown (s' := c!"METAR ULLI 112200Z 24005MPS RMK AO2 SLP123")
    (wb := [c!"SLP123"]) (limit' := 200) (u := c!"XYZ")
    (ga := r.groups.take 6) (gb := r.groups.drop 7) (x := ⟨.keyword ⟨.AO2⟩, .RMK, c!"AO2"⟩)
    (by rw [h6]; exact groups_tokens c!"METAR ULLI 112200Z 24005MPS RMK AO2 XYZ SLP123")
    (by rw [h6]; exact groups_tokens c!"METAR ULLI 112200Z 24005MPS RMK AO2 SLP123") h1 h2 h3 h4
    (by rw [h6]; rfl) (by rw [h6]; exact Nat.le_of_ble_eq_true rfl)
    ⟨⟨.keyword ⟨.RMK⟩, .METAR, c!"RMK"⟩, by rw [h6]; simp, rfl⟩ (by rw [h6]; rfl) nofun (by decide)
    (by rw [h6]; rintro y hy; cases hy; exact nofun)
    (fun _ => ⟨fun w _ => (example_ao2 _ w []).1, (example_ao2 none [] _).2⟩)
  exact ⟨r, r', h1, h7, h8, h9⟩

end

end Metaf.Props
