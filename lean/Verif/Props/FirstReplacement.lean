import Verif.Props.Replacement
import Verif.Props.HeaderChange

/-!
C139: the first groups after the header removed, replaced or preceded by others.
-/

set_option linter.unusedSectionVars false

namespace Metaf.Props

open Metaf Metaf.Spec

variable [FloatIeee]

/-- What follows the header, with the first groups replaced by others. -/
theorem body_front {ty : ReportType} {now : Option Nat} {wb v : List Str} {n : Nat} {gm gb : List GroupInfo}
    {iv : List (Group × List Str)}
    (h : BodyMeaning ty now (gm.flatMap (fun x => words x.rawString) ++ wb) n (gm ++ gb) .NONE)
    (hn : hasWord .NIL (gm ++ gb) = false) (hc : hasWord .CNL (gm ++ gb) = false)
    (ht : ∀ w ∈ gm.flatMap (fun x => words x.rawString) ++ wb, Parser.Tok w)
    (hr : ∀ x ∈ gm, x.group ≠ .keyword ⟨.RMK⟩) (hm : KeptApart gm gb)
    (hd : Divided (bodyPart ty) v iv) (hv : KeptApart (entries (bodyPart ty) iv) gb)
    (hs : ∀ w ∈ v, w ∉ stops (bodyPart ty)) (hne : v ++ wb ≠ []) (hlast : NotContinued (bodyPart ty) iv wb) :
    ∃ n', n' ≤ (v ++ wb).length ∧ BodyMeaning ty now (v ++ wb) n' (entries (bodyPart ty) iv ++ gb) .NONE := by
  have hp : isBody (bodyPart ty) := by
    cases ty
    · exact Or.inl rfl
    · exact Or.inl rfl
    · exact Or.inr rfl
  have main : ∀ {us rest : List Str} {items : List (Group × List Str)} {gb' : List GroupInfo},
      us ++ rest = gm.flatMap (fun x => words x.rawString) ++ wb →
      (∀ w ∈ us, Parser.Tok w) → entries (bodyPart ty) items = gm ++ gb' → KeptApart gm gb' →
      KeptApart (entries (bodyPart ty) iv) gb' → Divided (bodyPart ty) us items →
      (∀ w ∈ us, w ∉ stops (bodyPart ty)) →
      ∃ us' items', us' ++ rest = v ++ wb ∧ Divided (bodyPart ty) us' items' ∧
        entries (bodyPart ty) items' = entries (bodyPart ty) iv ++ gb' ∧ ∀ w ∈ us', w ∉ stops (bodyPart ty) := by
    intro us rest items gb' e ht he hm hv hdu hst
    obtain ⟨im, ib, rfl, e3, e4⟩ := separate_split he hm
    have eu := divided_words hdu
    obtain ⟨-, hdb⟩ := divided_split hdu rfl
    have htok : ∀ it ∈ im ++ ib, ∀ w ∈ it.2, Parser.Tok w := by
      intro it hi w hw
      refine ht w ?_
      rw [eu]
      exact List.mem_flatMap.mpr ⟨it, hi, hw⟩
    have ew := entries_words (p := bodyPart ty) fun it hi => htok it (List.mem_append_left _ hi)
    rw [e3] at ew
    rw [List.flatMap_append] at eu
    rw [eu, ew, List.append_assoc] at e
    have eb := List.append_cancel_left e
    have hlast' : NotContinued (bodyPart ty) iv (ib.flatMap (·.2)) := by
      intro it hi hg w hw
      refine hlast it hi hg w ?_
      rw [← eb]
      cases hib : ib.flatMap (·.2) with
      | nil => rw [hib] at hw; cases hw
      | cons a l => rw [hib] at hw; exact hw
    refine ⟨_, _, ?_, divided_append hp hd hdb hlast', ?_, ?_⟩
    · rw [List.append_assoc, eb]
    · rw [separate_append (by rw [e4]; exact hv), e4]
    · intro w hw
      rcases List.mem_append.mp hw with hw | hw
      · exact hs w hw
      · exact hst w (by rw [eu]; exact List.mem_append_right _ hw)
  generalize hx' : ReportError.NONE = e at h
  generalize hy : gm ++ gb = gs at h
  generalize hw : gm.flatMap (fun x => words x.rawString) ++ wb = ws at h
  cases h with
  | nothing => cases hx'
  | nil => rw [hy] at hn; simp [hasWord] at hn
  | cnl => rw [hy] at hc; simp [hasWord] at hc
  | cnlMetar => cases hx'
  | body h1 h2 h3 =>
    rw [hw] at ht
    obtain ⟨us, items, a, d, e, f⟩ := main (rest := []) (by rw [List.append_nil]; exact hw.symm) ht hy.symm hm hv h3 h2
    rw [List.append_nil] at a
    rw [← a, ← e]
    exact ⟨_, Nat.le_refl _, .body (by rw [a]; exact hne) f d⟩
  | ended => cases hx'
  | maintenance => cases hx'
  | @remarks us rmk items m gs _ h1 h2 h3 =>
    subst hx'
    have hlen : m ≤ rmk.length := by
      cases h3 with
      | all => exact Nat.le_refl _
    rw [hw] at ht
    have begins : ∀ {c d : List GroupInfo} {y : GroupInfo}, gb = c ++ y :: d → BeginsKnown gb → BeginsKnown c := by
      intro c d y e hb z hz
      refine hb z ?_
      rw [e]
      cases c with
      | nil => cases hz
      | cons a c => exact hz
    obtain ⟨c, hc1, hc2⟩ : ∃ c, entries (bodyPart ty) items = gm ++ c ∧
        gb = c ++ ⟨.keyword ⟨.RMK⟩, bodyPart ty, c!"RMK"⟩ :: gs := by
      rcases List.append_eq_append_iff.mp hy with ⟨c, hc1, hc2⟩ | ⟨c, hc1, hc2⟩
      · exact ⟨c, hc1, hc2⟩
      · cases c with
        | nil => exact ⟨[], by rw [hc1, List.append_nil, List.append_nil], hc2.symm⟩
        | cons y c =>
          rw [List.cons_append] at hc2
          injection hc2 with hc2 _
          exact absurd (by rw [← hc2]) (hr y (by rw [hc1]; simp))
    obtain ⟨us', items', a, d, f, i⟩ := main (rest := c!"RMK" :: rmk) (gb' := c) hw.symm
      (fun w hw => ht w (List.mem_append_left _ hw)) hc1 (hm.imp_right (begins hc2)) (hv.imp_right (begins hc2)) h2 h1
    have := BodyMeaning.remarks i d h3
    rw [a, f] at this
    rw [hc2]
    refine ⟨us'.length + 1 + m, ?_, ?_⟩
    · rw [← a]
      simp only [List.length_append, List.length_cons]
      omega
    · rw [List.append_assoc] at this
      exact this

/-- C139. The first groups after the header replaced. Let a report with a complete header be read without error,
and let it be neither missing nor cancelled. Let `gm` be the first groups after the header (possibly none) and `gb` those after them.
Let `v` be any other words, without the words which end the body, and `iv` the way in which words `v` of the body are
divided into groups. Suppose that no group goes on over the end, that unknown words are apart, and that some word is
left after the header. Then the report with `v` instead of the words of `gm` has the groups of the header, those of
`iv`, and `gb`. Its type is the same and there is no error. -/
theorem C139_first {s s' : Str} {ty : ReportType} {hs : Words} {wb v : List Str} {limit limit' : Nat} {r : ParseResult}
    {gm gb : List GroupInfo} {iv : List (Group × List Str)} (hf : FullHeader ty hs)
    (hg : Groups s (wordsOf hs ++ (gm.flatMap (fun x => words x.rawString) ++ wb)))
    (hg' : Groups s' (wordsOf hs ++ (v ++ wb))) (hr : Result s limit r)
    (he : r.reportMetadata.error = .NONE) (hn : r.reportMetadata.isNil = false)
    (hc : r.reportMetadata.isCancelled = false) (hgs : r.groups = headerEntries hs ++ (gm ++ gb))
    (hl : (wordsOf hs ++ (v ++ wb)).length < limit')
    (hrm : ∀ y ∈ gm, y.group ≠ .keyword ⟨.RMK⟩)
    (hm : (∀ y, gm.getLast? = some y → Known y) ∨ ∀ y, gb.head? = some y → Known y)
    (hd : Divided (bodyPart ty) v iv) (hst : ∀ w ∈ v, w ∉ stops (bodyPart ty))
    (hv : (∀ it, iv.getLast? = some it → ∀ u, it.1 ≠ .unknown u) ∨ ∀ y, gb.head? = some y → Known y)
    (hne : v ++ wb ≠ [])
    (hafter : ∀ it, iv.getLast? = some it → (∃ g, Written (bodyPart ty) it.2 g) →
      ∀ w, wb.head? = some w → ∀ g', ¬ Written (bodyPart ty) (it.2 ++ [w]) g') :
    ∃ r', Result s' limit' r' ∧ r'.groups = headerEntries hs ++ (entries (bodyPart ty) iv ++ gb) ∧
      r.reportMetadata.type = ty ∧ r'.reportMetadata.type = ty ∧ r'.reportMetadata.error = .NONE := by
  have htok : ∀ w ∈ gm.flatMap (fun x => words x.rawString) ++ wb, Parser.Tok w := by
    intro w hw
    have hw' := List.mem_append_right (wordsOf hs) hw
    rw [← tokens_of_groups hg] at hw'
    exact Parser.tok_of_mem hw'
  have hrec := C85_record hr
  rw [hrec] at hn hc
  have hn : hasWord .NIL r.groups = false := hn
  have hc : hasWord .CNL r.groups = false := hc
  have noWord : ∀ {k : KeywordType} {a b : List GroupInfo}, hasWord k (a ++ b) = false → hasWord k b = false := by
    intro k a b h
    simp only [hasWord, List.any_append, Bool.or_eq_false_iff] at h ⊢
    exact h.2
  rw [hgs] at hn hc
  obtain ⟨n, gs, e, hb⟩ := body_all (full_type hf) (headerHour hs) (gm.flatMap (fun x => words x.rawString) ++ wb)
  have ho := outcome_of hg hr
  rw [he, hgs] at ho
  obtain ⟨n0, hmean⟩ : ∃ n0, Meaning (wordsOf hs ++ (gm.flatMap (fun x => words x.rawString) ++ wb)) n0
      (headerEntries hs ++ (gm ++ gb)) r.reportMetadata.type .NONE := by
    generalize headerEntries hs ++ (gm ++ gb) = gs at ho ⊢
    generalize r.reportMetadata.type = ty' at ho ⊢
    generalize hx : ReportError.NONE = e at ho ⊢
    cases ho with
    | within h _ => exact ⟨_, h⟩
    | tooLarge => cases hx
    | third => cases hx
  obtain ⟨-, h1, h2, rfl⟩ := C84_meaning_unique hmean (.typed hf hb)
  obtain rfl := List.append_cancel_left h1
  have hv' : KeptApart (entries (bodyPart ty) iv) gb := by
    refine hv.imp_left fun h => ?_
    cases hi : iv.getLast? with
    | none =>
      rw [List.getLast?_eq_none_iff.mp hi]
      intro y hy
      cases hy
    | some it =>
      obtain ⟨iv', hiv⟩ := List.getLast?_eq_some_iff.mp hi
      obtain ⟨g, ws⟩ := it
      have hk := h _ hi
      intro y hy
      rw [hiv, entries_append_right] at hy
      · rw [entries_known_first (Or.inl hk)] at hy
        rw [List.getLast?_append] at hy
        cases hy
        exact hk
      · rw [entries_known_first (Or.inl hk)]
        intro z hz
        cases hz
        exact hk
  obtain ⟨n', hn', hb'⟩ := body_front hb (noWord hn) (noWord hc) htok hrm hm hd hv' hst hne hafter
  have hlen : (wordsOf hs).length = hs.length := by simp [wordsOf]
  rw [List.length_append, hlen] at hl
  obtain ⟨r', a, b, c, d⟩ := (C84_outcome hg').mpr (Outcome.within (.typed hf hb') (limit := limit') (by omega))
  exact ⟨r', a, b, h2, c, d⟩

/-- C114. A group inserted directly after the header. Let a report with a complete header be read without error, and
let it be neither missing nor cancelled. If words `v` of a group are inserted after the header, and they are not
continued by the next word, the report has this group after the header and all other groups are the same. Its type is
the same and there is no error. -/
theorem C114_first {s s' : Str} {ty : ReportType} {hs : Words} {wb v : List Str} {limit limit' : Nat} {r : ParseResult}
    {gb : List GroupInfo} {g : Group} (hf : FullHeader ty hs) (hg : Groups s (wordsOf hs ++ wb))
    (hg' : Groups s' (wordsOf hs ++ (v ++ wb))) (hr : Result s limit r)
    (he : r.reportMetadata.error = .NONE) (hn : r.reportMetadata.isNil = false)
    (hc : r.reportMetadata.isCancelled = false) (hgs : r.groups = headerEntries hs ++ gb)
    (hl : (wordsOf hs ++ (v ++ wb)).length < limit')
    (hw : Written (bodyPart ty) v g) (hu : ¬ Unfinished v) (hk : ∀ u, g ≠ .unknown u)
    (hst : ∀ w ∈ v, w ∉ stops (bodyPart ty))
    (hafter : ∀ w, wb.head? = some w → ∀ g', ¬ Written (bodyPart ty) (v ++ [w]) g') :
    ∃ r', Result s' limit' r' ∧ r'.groups = headerEntries hs ++ ⟨g, bodyPart ty, unwords v⟩ :: gb ∧
      r'.reportMetadata.type = ty ∧ r'.reportMetadata.error = .NONE := by
  have hd : Divided (bodyPart ty) v [(g, v)] := by
    have := Divided.group (rest := []) hw hu (fun w hw => by cases hw) .nil
    rwa [List.append_nil] at this
  have hne : v ++ wb ≠ [] := by
    have := divided_ne (bodyPart_cases ty) hd _ (List.mem_singleton.mpr rfl)
    simp [this]
  obtain ⟨r', h1, h2, -, h3, h4⟩ := C139_first (gm := []) hf (by simpa using hg) hg' hr he hn hc (by simpa using hgs) hl
    (fun y hy => by cases hy) (Or.inl fun y hy => by cases hy) hd hst
    (Or.inl fun it hi => by cases hi; exact hk) hne
    (fun it hi _ => by cases hi; exact hafter)
  refine ⟨r', h1, ?_, h3, h4⟩
  rw [h2, entries_known_first (Or.inl hk)]
  rfl

/-- C114. A word which is no group, inserted directly after the header before a group which is not unknown, gives one
unknown group after the header and changes nothing else, the metadata included. -/
theorem C114_first_unknown {s s' : Str} {ty : ReportType} {hs : Words} {wb : List Str} {u : Str} {limit limit' : Nat}
    {r : ParseResult} {gb : List GroupInfo} (hf : FullHeader ty hs) (hg : Groups s (wordsOf hs ++ wb))
    (hg' : Groups s' (wordsOf hs ++ u :: wb)) (hr : Result s limit r)
    (he : r.reportMetadata.error = .NONE) (hn : r.reportMetadata.isNil = false)
    (hc : r.reportMetadata.isCancelled = false) (hgs : r.groups = headerEntries hs ++ gb)
    (hl : (wordsOf hs ++ u :: wb).length < limit') (hb : ∀ y, gb.head? = some y → Known y)
    (hu : ∀ g, ¬ Written (bodyPart ty) [u] g) (hst : u ∉ stops (bodyPart ty)) :
    ∃ r', Result s' limit' r' ∧ r'.groups = headerEntries hs ++ ⟨.unknown {}, bodyPart ty, u⟩ :: gb ∧
      r'.reportMetadata = r.reportMetadata := by
  obtain ⟨r', h1, h2, h3, h4, h5⟩ := C139_first (gm := []) (v := [u]) (iv := [(.unknown {}, [u])]) hf (by simpa using hg)
    hg' hr he hn hc (by simpa using hgs) hl
    (fun y hy => by cases hy) (Or.inl fun y hy => by cases hy) (.unknown hu .nil)
    (fun w hw => by rw [List.mem_singleton.mp hw]; exact hst) (Or.inr hb) (by simp)
    (fun it hi ⟨g, hg⟩ => by cases hi; exact absurd hg (hu g))
  have h2 : r'.groups = headerEntries hs ++ ⟨.unknown {}, bodyPart ty, u⟩ :: gb := h2
  refine ⟨r', h1, h2, ?_⟩
  have hm := C85_record hr
  have hm' := C85_record h1
  rw [h4, h5, h2, record_unknown] at hm'
  rw [h3, he, hgs] at hm
  exact hm'.trans hm.symm

end Metaf.Props

namespace Metaf.Props

open Metaf Metaf.Spec

section
attribute [local instance] ieee

/-- The header `METAR ULLI 112200Z`. -/
theorem header_ulli : FullHeader .METAR [(c!"METAR", .keyword ⟨.METAR⟩), (c!"ULLI", .location ⟨c!"ULLI"⟩),
    (c!"112200Z", .reportTime ⟨⟨some 11, 22, 0⟩⟩)] :=
  .metar (hs := [(c!"METAR", .keyword ⟨.METAR⟩), (c!"ULLI", .location ⟨c!"ULLI"⟩)]) (d := 11) (h := 22) (m := 0)
    (.location (Or.inr (Or.inl rfl)) .metar ⟨_, _, _, _, rfl, by unfold Capital; decide,
      Or.inl (by unfold Capital; decide), Or.inl (by unfold Capital; decide), Or.inl (by unfold Capital; decide)⟩)
    (by decide) (by decide) (by decide)

set_option maxRecDepth 4000 in
/-- The group `CAVOK` directly after the header. -/
example : ∃ r r', Result c!"METAR ULLI 112200Z 24005MPS NOSIG RMK AO2 SLP123" 200 r ∧
    Result c!"METAR ULLI 112200Z CAVOK 24005MPS NOSIG RMK AO2 SLP123" 200 r' ∧
    r'.groups = r.groups.take 3 ++ ⟨.keyword ⟨.CAVOK⟩, .METAR, c!"CAVOK"⟩ :: r.groups.drop 3 := by
  obtain ⟨r, h1, h2, h3, h4, h5, h6⟩ := example_report
  have hv : Written .METAR [c!"CAVOK"] (.keyword ⟨.CAVOK⟩) :=
    .keyword ⟨[.METAR, .TAF], by simp [keywords], by decide⟩
  obtain ⟨r', h7, h8, -⟩ := C114_first (s' := c!"METAR ULLI 112200Z CAVOK 24005MPS NOSIG RMK AO2 SLP123")
    (wb := [c!"24005MPS", c!"NOSIG", c!"RMK", c!"AO2", c!"SLP123"]) (v := [c!"CAVOK"]) (limit' := 200)
    (gb := r.groups.drop 3) header_ulli
    (groups_tokens c!"METAR ULLI 112200Z 24005MPS NOSIG RMK AO2 SLP123")
    (groups_tokens c!"METAR ULLI 112200Z CAVOK 24005MPS NOSIG RMK AO2 SLP123") h1 h2 h3 h4
    (by rw [h6]; rfl) (Nat.le_of_ble_eq_true rfl) hv nofun nofun (by decide)
    (by rintro w hw; cases hw; exact apart hv rfl)
  refine ⟨r, r', h1, h7, ?_⟩
  rw [h8, h6]
  rfl

set_option maxRecDepth 4000 in
/-- The unknown word `XYZ` directly after the header. -/
example : ∃ r r', Result c!"METAR ULLI 112200Z 24005MPS NOSIG RMK AO2 SLP123" 200 r ∧
    Result c!"METAR ULLI 112200Z XYZ 24005MPS NOSIG RMK AO2 SLP123" 200 r' ∧
    r'.groups = r.groups.take 3 ++ ⟨.unknown {}, .METAR, c!"XYZ"⟩ :: r.groups.drop 3 := by
  obtain ⟨r, h1, h2, h3, h4, h5, h6⟩ := example_report
  have hu : ∀ g, ¬ Written .METAR [c!"XYZ"] g := unwritten (by intro i hi; interval_cases i <;> rfl)
  obtain ⟨r', h7, h8, -⟩ := C114_first_unknown (s' := c!"METAR ULLI 112200Z XYZ 24005MPS NOSIG RMK AO2 SLP123")
    (wb := [c!"24005MPS", c!"NOSIG", c!"RMK", c!"AO2", c!"SLP123"]) (u := c!"XYZ") (limit' := 200)
    (gb := r.groups.drop 3) header_ulli
    (groups_tokens c!"METAR ULLI 112200Z 24005MPS NOSIG RMK AO2 SLP123")
    (groups_tokens c!"METAR ULLI 112200Z XYZ 24005MPS NOSIG RMK AO2 SLP123") h1 h2 h3 h4
    (by rw [h6]; rfl) (Nat.le_of_ble_eq_true rfl) (by rw [h6]; rintro y hy; cases hy; exact nofun) hu (by decide)
  refine ⟨r, r', h1, h7, ?_⟩
  rw [h8, h6]
  rfl

set_option maxRecDepth 4000 in
/-- The wind directly after the header removed. -/
example : ∃ r r', Result c!"METAR ULLI 112200Z 24005MPS NOSIG RMK AO2 SLP123" 200 r ∧
    Result c!"METAR ULLI 112200Z NOSIG RMK AO2 SLP123" 200 r' ∧
    r'.groups = r.groups.take 3 ++ r.groups.drop 4 := by
  obtain ⟨r, h1, h2, h3, h4, h5, h6⟩ := example_report
  obtain ⟨r', h7, h8, -⟩ := C139_first (s' := c!"METAR ULLI 112200Z NOSIG RMK AO2 SLP123")
    (wb := [c!"NOSIG", c!"RMK", c!"AO2", c!"SLP123"]) (v := []) (iv := []) (limit' := 200)
    (gm := (r.groups.drop 3).take 1) (gb := r.groups.drop 4) header_ulli
    (by rw [h6]; exact groups_tokens c!"METAR ULLI 112200Z 24005MPS NOSIG RMK AO2 SLP123")
    (groups_tokens c!"METAR ULLI 112200Z NOSIG RMK AO2 SLP123") h1 h2 h3 h4
    (by rw [h6]; rfl) (Nat.le_of_ble_eq_true rfl) (by rw [h6]; simp)
    (Or.inl (by rw [h6]; rintro y hy; cases hy; exact nofun)) .nil (fun _ h => by cases h)
    (Or.inl fun _ h => by cases h) nofun (fun _ h => by cases h)
  refine ⟨r, r', h1, h7, ?_⟩
  rw [h8, h6]
  rfl

end

end Metaf.Props
