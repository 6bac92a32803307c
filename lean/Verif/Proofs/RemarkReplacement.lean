import Verif.Proofs.Replacement
import Verif.Props.ExplainWeather

/-!
Lemmas on remarks of a report replaced by other remarks.
-/

set_option linter.unusedSectionVars false

namespace Metaf.Props

open Metaf Metaf.Spec

variable [FloatIeee]

/-! ### Divisions of remarks put together and taken apart -/

/-- The words `rest` come after an item which had the words `old` after it, and it stays what it is. -/
def StaysSame (now : Option Nat) (it : Group × List Str) (old rest : List Str) : Prop :=
  it.2 ≠ [] ∧ ((∃ g, Remark now it.2 g) →
    (∀ w, rest.head? = some w → ∀ g', ¬ Remark now (it.2 ++ [w]) g') ∧
    (Lacking (rest.headD []) it.2 ↔ Lacking (old.headD []) it.2))

theorem remarks_nil {now : Option Nat} {items : List (Group × List Str)} (h : DividedRemarks now [] items) :
    items = [] := C73_unique now h .nil

/-- The remarks before a place stay the same if the last of them does. -/
theorem remarks_followed {now : Option Nat} {us rest : List Str} {items ia ib ir : List (Group × List Str)}
    (h : DividedRemarks now us items) (e : items = ia ++ ib) (hr : DividedRemarks now rest ir)
    (hl : ∀ it, ia.getLast? = some it → StaysSame now it (ib.flatMap (·.2)) rest) :
    DividedRemarks now (ia.flatMap (·.2) ++ rest) (ia ++ ir) := by
  have tail : ∀ {it : Group × List Str} {ia : List (Group × List Str)},
      (∀ x, (it :: ia).getLast? = some x → StaysSame now x (ib.flatMap (·.2)) rest) →
      ∀ x, ia.getLast? = some x → StaysSame now x (ib.flatMap (·.2)) rest := by
    intro it ia h x hx
    refine h x ?_
    cases ia with
    | nil => cases hx
    | cons y ia => rw [List.getLast?_cons_cons]; exact hx
  have next : ∀ {ws vs : List Str} {g0 g : Group} {ia : List (Group × List Str)},
      DividedRemarks now vs (ia ++ ib) → Remark now ws g →
      (∀ x, ((g0, ws) :: ia).getLast? = some x → StaysSame now x (ib.flatMap (·.2)) rest) →
      (∀ w, vs.head? = some w → ∀ g', ¬ Remark now (ws ++ [w]) g') →
      (∀ w, (ia.flatMap (·.2) ++ rest).head? = some w → ∀ g', ¬ Remark now (ws ++ [w]) g') ∧
      (Lacking ((ia.flatMap (·.2) ++ rest).headD []) ws ↔ Lacking (vs.headD []) ws) := by
    intro ws vs g0 g ia hd hw hl hn
    have hv := dividedRemarks_words hd
    rw [List.flatMap_append] at hv
    cases hc : ia.flatMap (·.2) with
    | cons a l =>
      rw [hc] at hv
      subst hv
      exact ⟨hn, Iff.rfl⟩
    | nil =>
      rw [hc, List.nil_append] at hv
      cases hi : ia.getLast? with
      | none =>
        rw [List.getLast?_eq_none_iff] at hi
        subst hi
        obtain ⟨-, h⟩ := hl _ rfl
        rw [hv]
        exact h ⟨g, hw⟩
      | some it =>
        obtain ⟨h, -⟩ := tail hl it hi
        exact absurd (List.flatMap_eq_nil_iff.mp hc it (List.mem_of_getLast? hi)) h
  induction h generalizing ia with
  | nil =>
    obtain ⟨rfl, rfl⟩ := List.append_eq_nil_iff.mp e.symm
    exact hr
  | group h1 h2 h3 h4 ih =>
    cases ia with
    | nil => exact hr
    | cons it ia =>
      rw [List.cons_append] at e
      injection e with e1 e2
      subst e1 e2
      obtain ⟨a, b⟩ := next h4 h1 hl h2
      rw [List.flatMap_cons, List.append_assoc, List.cons_append]
      exact .group h1 a (fun h => h3 (b.mp h)) (ih rfl (tail hl))
  | lacking h1 h2 h3 h5 h4 ih =>
    cases ia with
    | nil => exact hr
    | cons it ia =>
      rw [List.cons_append] at e
      injection e with e1 e2
      subst e1 e2
      obtain ⟨a, b⟩ := next h4 h1 hl h2
      rw [List.flatMap_cons, List.append_assoc, List.cons_append]
      exact .lacking h1 a (b.mpr h3) h5 (ih rfl (tail hl))
  | @ambiguous w vs y items h1 h2 h3 h4 ih =>
    cases ia with
    | nil => exact hr
    | cons it ia =>
      rw [List.cons_append] at e
      injection e with e1 e2
      subst e1
      cases ia with
      | nil => exact absurd rfl (hl _ rfl).1
      | cons it ia =>
        rw [List.cons_append] at e2
        injection e2 with e1 e2
        subst e1 e2
        obtain ⟨a, b⟩ := next h4 h2 (tail hl) h3
        exact .ambiguous h1 h2 a (ih rfl (tail (tail hl)))
  | unknown h1 h2 ih =>
    cases ia with
    | nil => exact hr
    | cons it ia =>
      rw [List.cons_append] at e
      injection e with e1 e2
      subst e1 e2
      exact .unknown h1 (ih rfl (tail hl))

/-- The remarks after a place are divided by themselves. -/
theorem remarks_after {now : Option Nat} {us : List Str} {items ia ib : List (Group × List Str)}
    (h : DividedRemarks now us items) (e : items = ia ++ ib) (hl : ∀ it, ia.getLast? = some it → it.2 ≠ []) :
    DividedRemarks now (ib.flatMap (·.2)) ib := by
  have tail : ∀ {it : Group × List Str} {ia : List (Group × List Str)},
      (∀ x, (it :: ia).getLast? = some x → x.2 ≠ []) → ∀ x, ia.getLast? = some x → x.2 ≠ [] := by
    intro it ia h x hx
    refine h x ?_
    cases ia with
    | nil => cases hx
    | cons y ia => rw [List.getLast?_cons_cons]; exact hx
  have whole : ∀ {us}, DividedRemarks now us ib → DividedRemarks now (ib.flatMap (·.2)) ib := by
    intro us h
    rw [← dividedRemarks_words h]
    exact h
  induction h generalizing ia with
  | nil =>
    obtain ⟨rfl, rfl⟩ := List.append_eq_nil_iff.mp e.symm
    exact .nil
  | group h1 h2 h3 h4 ih =>
    cases ia with
    | nil => rw [List.nil_append] at e; subst e; exact whole (.group h1 h2 h3 h4)
    | cons it ia =>
      rw [List.cons_append] at e
      injection e with e1 e2
      exact ih e2 (tail hl)
  | lacking h1 h2 h3 h5 h4 ih =>
    cases ia with
    | nil => rw [List.nil_append] at e; subst e; exact whole (.lacking h1 h2 h3 h5 h4)
    | cons it ia =>
      rw [List.cons_append] at e
      injection e with e1 e2
      exact ih e2 (tail hl)
  | ambiguous h1 h2 h3 h4 ih =>
    cases ia with
    | nil => rw [List.nil_append] at e; subst e; exact whole (.ambiguous h1 h2 h3 h4)
    | cons it ia =>
      rw [List.cons_append] at e
      injection e with e1 e2
      cases ia with
      | nil =>
        subst e1
        exact absurd rfl (hl _ rfl)
      | cons it' ia =>
        rw [List.cons_append] at e2
        injection e2 with e3 e4
        exact ih e4 (tail (tail hl))
  | unknown h1 h2 ih =>
    cases ia with
    | nil => rw [List.nil_append] at e; subst e; exact whole (.unknown h1 h2)
    | cons it ia =>
      rw [List.cons_append] at e
      injection e with e1 e2
      exact ih e2 (tail hl)

/-- A remark which is not unknown lacks nothing. -/
theorem last_complete {now : Option Nat} {us : List Str} {items ia ib : List (Group × List Str)}
    (h : DividedRemarks now us items) (e : items = ia ++ ib) {it : Group × List Str} (hi : ia.getLast? = some it)
    (hk : ∀ y, it.1 ≠ .unknown y) (hw : it.2 ≠ []) : ¬ Lacking ((ib.flatMap (·.2)).headD []) it.2 := by
  have tail : ∀ {x y : Group × List Str} {ia : List (Group × List Str)}, (x :: y :: ia).getLast? = some it →
      (y :: ia).getLast? = some it := by
    intro x y ia h
    rwa [List.getLast?_cons_cons] at h
  induction h generalizing ia with
  | nil =>
    obtain ⟨rfl, rfl⟩ := List.append_eq_nil_iff.mp e.symm
    cases hi
  | group h1 h2 h3 h4 ih =>
    match ia, e, hi with
    | [x], e, hi =>
      rw [List.singleton_append] at e
      injection e with e1 e2
      cases hi
      subst e1 e2
      rw [← dividedRemarks_words h4]
      exact h3
    | x :: y :: ia, e, hi =>
      rw [List.cons_append] at e
      injection e with e1 e2
      exact ih e2 (tail hi)
  | lacking h1 h2 h3 h5 h4 ih =>
    match ia, e, hi with
    | [x], e, hi =>
      rw [List.singleton_append] at e
      injection e with e1 e2
      cases hi
      subst e1
      exact absurd rfl (hk {})
    | x :: y :: ia, e, hi =>
      rw [List.cons_append] at e
      injection e with e1 e2
      exact ih e2 (tail hi)
  | ambiguous h1 h2 h3 h4 ih =>
    match ia, e, hi with
    | [x], e, hi =>
      rw [List.singleton_append] at e
      injection e with e1 e2
      cases hi
      subst e1
      exact absurd rfl hw
    | [x, y], e, hi =>
      rw [List.cons_append, List.singleton_append] at e
      injection e with e1 e2
      injection e2 with e2 e3
      cases hi
      subst e2
      exact absurd rfl (hk {})
    | x :: y :: z :: ia, e, hi =>
      rw [List.cons_append, List.cons_append] at e
      injection e with e1 e2
      injection e2 with e2 e3
      exact ih e3 (tail (tail hi))
  | unknown h1 h2 ih =>
    match ia, e, hi with
    | [x], e, hi =>
      rw [List.singleton_append] at e
      injection e with e1 e2
      cases hi
      subst e1
      exact absurd rfl (hk {})
    | x :: y :: ia, e, hi =>
      rw [List.cons_append] at e
      injection e with e1 e2
      exact ih e2 (tail hi)

/-- Before a remark which is not unknown there is one with words. -/
theorem last_text {now : Option Nat} {us : List Str} {items ia ib : List (Group × List Str)}
    (h : DividedRemarks now us items) (e : items = ia ++ ib) (hb : ∀ it, ib.head? = some it → ∀ y, it.1 ≠ .unknown y)
    {it : Group × List Str} (hi : ia.getLast? = some it) : it.2 ≠ [] := by
  have tail : ∀ {x y : Group × List Str} {ia : List (Group × List Str)}, (x :: y :: ia).getLast? = some it →
      (y :: ia).getLast? = some it := by
    intro x y ia h
    rwa [List.getLast?_cons_cons] at h
  induction h generalizing ia with
  | nil =>
    obtain ⟨rfl, rfl⟩ := List.append_eq_nil_iff.mp e.symm
    cases hi
  | group h1 h2 h3 h4 ih =>
    match ia, e, hi with
    | [x], e, hi =>
      rw [List.singleton_append] at e
      injection e with e1 e2
      cases hi
      subst e1
      exact remark_ne h1
    | x :: y :: ia, e, hi =>
      rw [List.cons_append] at e
      injection e with e1 e2
      exact ih e2 (tail hi)
  | lacking h1 h2 h3 h5 h4 ih =>
    match ia, e, hi with
    | [x], e, hi =>
      rw [List.singleton_append] at e
      injection e with e1 e2
      cases hi
      subst e1
      exact remark_ne h1
    | x :: y :: ia, e, hi =>
      rw [List.cons_append] at e
      injection e with e1 e2
      exact ih e2 (tail hi)
  | ambiguous h1 h2 h3 h4 ih =>
    match ia, e, hi with
    | [x], e, hi =>
      rw [List.singleton_append] at e
      injection e with e1 e2
      subst e2
      exact absurd rfl (hb _ rfl {})
    | [x, y], e, hi =>
      rw [List.cons_append, List.singleton_append] at e
      injection e with e1 e2
      injection e2 with e2 e3
      cases hi
      subst e2
      exact nofun
    | x :: y :: z :: ia, e, hi =>
      rw [List.cons_append, List.cons_append] at e
      injection e with e1 e2
      injection e2 with e2 e3
      exact ih e3 (tail (tail hi))
  | unknown h1 h2 ih =>
    match ia, e, hi with
    | [x], e, hi =>
      rw [List.singleton_append] at e
      injection e with e1 e2
      cases hi
      subst e1
      exact nofun
    | x :: y :: ia, e, hi =>
      rw [List.cons_append] at e
      injection e with e1 e2
      exact ih e2 (tail hi)

theorem begins_item {p : ReportPart} {ib : List (Group × List Str)} (hb : BeginsKnown (entries p ib)) :
    ∀ it, ib.head? = some it → ∀ y, it.1 ≠ .unknown y := by
  intro it hi y hy
  cases ib with
  | nil => cases hi
  | cons it' ib =>
    obtain ⟨g', wl⟩ := it'
    cases hi
    change g' = _ at hy
    subst hy
    rcases entries_cons p (.unknown y) wl ib with ⟨u', v, raw, q, later, -, -, h⟩ | ⟨-, h⟩
    · exact absurd rfl (hb ⟨.unknown u', _, _⟩ (by rw [h]; rfl) u')
    · exact absurd rfl (hb ⟨.unknown y, _, _⟩ (by rw [h]; rfl) y)

/-! ### The remarks of a report -/

/-- What follows the header, with some remarks replaced by others. -/
theorem body_replace_remark {ty : ReportType} {now : Option Nat} {ws wb v : List Str} {n : Nat}
    {ga gm gb : List GroupInfo} {iv : List (Group × List Str)} {x : GroupInfo}
    (h : BodyMeaning ty now ws n (ga ++ (gm ++ gb)) .NONE) (hn : hasWord .NIL (ga ++ (gm ++ gb)) = false)
    (hc : hasWord .CNL (ga ++ (gm ++ gb)) = false) (ht : ∀ w ∈ ws, Parser.Tok w)
    (hw : ws = ga.flatMap (fun x => words x.rawString) ++ (gm.flatMap (fun x => words x.rawString) ++ wb))
    (hx : ga.getLast? = some x) (hk : Known x) (hxw : words x.rawString ≠ [])
    (hr : ∃ x ∈ ga, x.group = .keyword ⟨.RMK⟩)
    (hm : (∀ y, gm.getLast? = some y → Known y ∧ words y.rawString ≠ []) ∨ BeginsKnown gb)
    (hd : DividedRemarks now v iv) (hv : KeptApart (entries .RMK iv) gb) (hs : ty = .TAF → c!"$" ∉ v)
    (hfirst : x.reportPart = .RMK → (∀ w, (v ++ wb).head? = some w → ∀ g', ¬ Remark now (words x.rawString ++ [w]) g') ∧
      ¬ Lacking ((v ++ wb).headD []) (words x.rawString))
    (hlast : ∀ it, iv.getLast? = some it → (∃ g, Remark now it.2 g) →
      (∀ w, wb.head? = some w → ∀ g', ¬ Remark now (it.2 ++ [w]) g') ∧
      (Lacking (wb.headD []) it.2 ↔ Lacking [] it.2)) :
    ∃ n', n' ≤ (ga.flatMap (fun x => words x.rawString) ++ (v ++ wb)).length ∧
      BodyMeaning ty now (ga.flatMap (fun x => words x.rawString) ++ (v ++ wb)) n'
        (ga ++ (entries .RMK iv ++ gb)) .NONE := by
  generalize hx' : ReportError.NONE = e at h
  generalize hy : ga ++ (gm ++ gb) = gs at h
  have inBody : ∀ {items : List (Group × List Str)} {us : List Str} {c : List GroupInfo},
      Divided (bodyPart ty) us items → (∀ w ∈ us, w ∉ stops (bodyPart ty)) →
      entries (bodyPart ty) items = ga ++ c → False := by
    intro items us c h2 h1 h3
    obtain ⟨x, hx, hg⟩ := hr
    exact no_rmk h2 h1 x (by rw [h3]; exact List.mem_append_left _ hx) hg
  cases h with
  | nothing => cases hx'
  | nil => rw [hy] at hn; simp [hasWord] at hn
  | cnl => rw [hy] at hc; simp [hasWord] at hc
  | cnlMetar => cases hx'
  | body h1 h2 h3 => exact (inBody h3 h2 hy.symm).elim
  | ended => cases hx'
  | maintenance => cases hx'
  | @remarks us rmk items m gs _ h1 h2 h3 =>
    rcases List.append_eq_append_iff.mp hy with ⟨c, hc1, hc2⟩ | ⟨c, hc1, hc2⟩
    · exact (inBody h2 h1 hc1).elim
    · cases c with
      | nil => exact (inBody (c := []) h2 h1 (by rw [hc1, List.append_nil, List.append_nil])).elim
      | cons y c =>
        rw [List.cons_append] at hc2
        injection hc2 with hc2 hc3
        subst hc2 hc1
        cases h3 with
        | maintenance => cases hx'
        | @all _ ritems hdl h3 =>
          have hlc : ∀ z, c.getLast? = some z → z = x := by
            intro z hz
            rw [List.getLast?_append, List.getLast?_cons, hz] at hx
            cases hx
            rfl
          have hkc : EndsKnown c := by
            intro z hz
            rw [hlc z hz]
            exact hk
          obtain ⟨ia, it, rfl, e1, e2⟩ := entries_split hc3 hkc
          have hm' : KeptApart gm gb := hm.imp_left fun h y hy => (h y hy).1
          obtain ⟨im, ib, rfl, e3, e4⟩ := separate_split e2 hm'
          have hti : ∀ it ∈ ia ++ (im ++ ib), ∀ w ∈ it.2, Parser.Tok w := by
            intro it hi w hw
            refine ht w ?_
            rw [dividedRemarks_words h3]
            exact List.mem_append_right _ (List.mem_cons_of_mem _ (List.mem_flatMap.mpr ⟨it, hi, hw⟩))
          have htb : ∀ it ∈ items, ∀ w ∈ it.2, Parser.Tok w := by
            intro it hi w hw
            refine ht w ?_
            rw [divided_words h2]
            exact List.mem_append_left _ (List.mem_flatMap.mpr ⟨it, hi, hw⟩)
          have ew := entries_words (p := .RMK) fun it hi => hti it (List.mem_append_left _ hi)
          have em := entries_words (p := .RMK) fun it hi =>
            hti it (List.mem_append_right _ (List.mem_append_left _ hi))
          have ew' := entries_words (p := bodyPart ty) htb
          rw [← divided_words h2] at ew'
          rw [e1] at ew
          rw [e3] at em
          have hrm : words c!"RMK" = [c!"RMK"] := rfl
          have el : (entries (bodyPart ty) items ++ ⟨.keyword ⟨.RMK⟩, bodyPart ty, c!"RMK"⟩ :: c).flatMap
              (fun x => words x.rawString) = us ++ c!"RMK" :: ia.flatMap (·.2) := by
            rw [List.flatMap_append, List.flatMap_cons, ew, ew', hrm]
            rfl
          rw [el] at hw ⊢
          rw [List.append_assoc, List.cons_append] at hw ⊢
          have eb := List.append_cancel_left hw
          injection eb with _ eb
          have er := dividedRemarks_words h3
          rw [List.flatMap_append, List.flatMap_append] at er
          rw [er, em] at eb
          have eb := List.append_cancel_left (List.append_cancel_left eb)
          have lastItem : ∀ it, ia.getLast? = some it → x = ⟨it.1, .RMK, unwords it.2⟩ := by
            intro it hi
            obtain ⟨ia', rfl⟩ := List.getLast?_eq_some_iff.mp hi
            obtain ⟨g', wl⟩ := it
            rw [← e1] at hkc hlc
            exact (hlc _ (entries_last hkc)).symm
          have hwx : ∀ it, ia.getLast? = some it → words x.rawString = it.2 := by
            intro it hi
            rw [lastItem it hi]
            exact words_unwords (hti it (List.mem_append_left _ (List.mem_of_getLast? hi)))
          have hne : ∀ it, ia.getLast? = some it → it.2 ≠ [] := by
            intro it hi
            rw [← hwx it hi]
            exact hxw
          have hdt := remarks_after h3 rfl hne
          have hnm : ∀ it, im.getLast? = some it → it.2 ≠ [] := by
            intro it hi
            rcases hm with hm | hm
            · obtain ⟨im', rfl⟩ := List.getLast?_eq_some_iff.mp hi
              obtain ⟨g', wl⟩ := it
              have hkm : EndsKnown (entries .RMK (im' ++ [(g', wl)])) := by
                rw [e3]
                exact fun y hy => (hm y hy).1
              have := (hm _ (by rw [← e3]; exact entries_last hkm)).2
              rwa [words_unwords (hti (g', wl) (by simp))] at this
            · exact last_text hdt rfl (begins_item (by rw [e4]; exact hm)) hi
          have hdb := remarks_after hdt rfl hnm
          have hdv := remarks_followed (ib := []) hd (List.append_nil _).symm hdb (by
            intro it hi
            refine ⟨last_text hd (List.append_nil _).symm (by simp) hi, fun hg => ?_⟩
            rw [eb]
            exact hlast it hi hg)
          have hvw : iv.flatMap (·.2) = v := (dividedRemarks_words hd).symm
          have hdd := remarks_followed h3 rfl hdv (by
            intro it hi
            refine ⟨hne it hi, fun _ => ?_⟩
            have hxi := lastItem it hi
            obtain ⟨f1, f2⟩ := hfirst (by rw [hxi])
            rw [hwx it hi] at f1 f2
            rw [hvw, eb]
            refine ⟨f1, fun h => absurd h f2, fun h => absurd h ?_⟩
            exact last_complete h3 rfl hi (by
              intro y hy
              exact hk y (by rw [hxi]; exact hy)) (hne it hi))
          have h1' : KeptApart (entries .RMK iv) (entries .RMK ib) := by rw [e4]; exact hv
          have h2' : EndsKnown (entries .RMK ia) := by rw [e1]; exact hkc
          have := BodyMeaning.remarks (now := now) h1 h2 (RemarksMeaning.all (ty := ty) (by
            intro hty hm
            rw [hvw] at hm
            rcases List.mem_append.mp hm with hm | hm
            · exact hdl hty (by rw [er]; exact List.mem_append_left _ hm)
            · rcases List.mem_append.mp hm with hm | hm
              · exact hs hty hm
              · exact hdl hty (by rw [er]; exact List.mem_append_right _ (List.mem_append_right _ hm))) hdd)
          rw [entries_append h2', separate_append h1', e1, e4, hvw, eb] at this
          refine ⟨_, ?_, by rw [List.append_assoc, List.cons_append]; exact this⟩
          simp only [List.length_append, List.length_cons]
          omega

/-! ### The hour of the report -/

theorem opening_untimed {p : Place} {ty : ReportType} {hs : Words} (h : Opening p ty hs) (hp : p ≠ .time) :
    lastSaid (fun x => timeValue x.group) (headerEntries hs) = none := by
  have add : ∀ {hs : Words} {w : Str} {g : Group}, timeValue g = none →
      lastSaid (fun x => timeValue x.group) (headerEntries hs) = none →
      lastSaid (fun x => timeValue x.group) (headerEntries (hs ++ [(w, g)])) = none := by
    intro hs w g hg h
    rw [headerEntries, List.map_append, lastSaid_append, ← headerEntries, h]
    simp [hg]
  induction h with
  | start | metar | speci | taf => rfl
  | cor _ ih => exact add rfl (ih (by simp))
  | amd _ ih => exact add rfl (ih (by simp))
  | location hp _ _ ih => exact add rfl (ih (by rintro rfl; simp at hp))
  | time => exact absurd rfl hp

/-- The time in a header is the only one. -/
theorem header_time {hs : Words} (h : (∃ ty, FullHeader ty hs) ∨ Opening .time .UNKNOWN hs) :
    (lastSaid (fun x => timeValue x.group) (headerEntries hs)).map (·.hourValue) = headerHour hs := by
  have add : ∀ {hs : Words} {w : Str} {g : Group}, timeValue g = none →
      (lastSaid (fun x => timeValue x.group) (headerEntries hs)).map (·.hourValue) = headerHour hs →
      (lastSaid (fun x => timeValue x.group) (headerEntries (hs ++ [(w, g)]))).map (·.hourValue) =
        headerHour (hs ++ [(w, g)]) := by
    intro hs w g hg h
    rw [headerEntries, List.map_append, lastSaid_append, ← headerEntries, headerHour_append]
    have : groupHour g = none := by
      cases g <;> first | rfl | cases hg
    rw [this, Option.or_none, ← h]
    simp [hg]
  have time : ∀ {ty : ReportType} {hs : Words} {w : Str} {t : ReportTimeGroup}, Opening .location ty hs →
      (lastSaid (fun x => timeValue x.group) (headerEntries (hs ++ [(w, .reportTime t)]))).map (·.hourValue) =
        headerHour (hs ++ [(w, .reportTime t)]) := by
    intro ty hs w t h
    rw [headerHour_append, opening_hour h (by simp), lastSaid, headerEntries, List.map_append, List.reverse_append]
    rfl
  have opened : ∀ {ty : ReportType} {hs : Words}, Opening .time ty hs →
      (lastSaid (fun x => timeValue x.group) (headerEntries hs)).map (·.hourValue) = headerHour hs := by
    intro ty hs h
    cases h with
    | time h => exact time h
  rcases h with ⟨ty, h⟩ | h
  · cases h with
    | metar h => exact time h
    | taf h => exact add rfl (by rw [opening_hour h (by simp), opening_untimed h (by simp)]; rfl)
    | tafTime h => exact add rfl (opened h)
  · exact opened h

theorem said_time {now : Option Nat} {x : GroupInfo} (h : Said now x) (hp : x.reportPart ≠ .HEADER) :
    timeValue x.group = none := by
  cases hv : timeValue x.group with
  | none => rfl
  | some t =>
    cases h with
    | unknown => cases hv
    | header => exact absurd rfl hp
    | afterNil => cases hv
    | @body p s g hp hw =>
      change timeValue g = some t at hv
      generalize words s = v at hw
      cases hw <;> cases hv
    | @remark s g next hr =>
      change timeValue (settled g) = some t at hv
      have hg : timeValue g = some t := by
        cases g <;> exact hv
      generalize words s = v at hr
      have hf : ∀ e ∈ fixedWords, timeValue e.2 = none := by decide +kernel
      have hm : ∀ e ∈ missingWords, timeValue e.2.1 = none ∧ timeValue e.2.2 = none := by decide +kernel
      cases hr with
      | fixed h => rw [hf _ h] at hg; cases hg
      | missing h => rw [(hm _ h).1] at hg; cases hg
      | missingSaid h => rw [(hm _ h).2] at hg; cases hg
      | _ => cases hg
    | remnant => cases hv

/-- What follows the header does not belong to it. -/
theorem body_part {ty : ReportType} {now : Option Nat} {ws : List Str} {n : Nat} {gs : List GroupInfo} {e : ReportError}
    (h : BodyMeaning ty now ws n gs e) : ∀ x ∈ gs, x.reportPart ≠ .HEADER := by
  have hp : bodyPart ty ≠ .HEADER := by cases ty <;> exact nofun
  have after : ∀ {err ws n gs e}, After err ws n gs e → ∀ x ∈ gs, x.reportPart ≠ .HEADER := by
    intro err ws n gs e h x hx
    cases h with
    | nothing => cases hx
    | word h =>
      rw [List.mem_singleton.mp hx]
      cases h <;> exact nofun
  have items : ∀ {items : List (Group × List Str)}, ∀ x ∈ entries (bodyPart ty) items, x.reportPart ≠ .HEADER := by
    intro items x hx
    rw [entries_part _ _ x hx]
    exact hp
  have remarks : ∀ {items : List (Group × List Str)}, ∀ x ∈ entries .RMK items, x.reportPart ≠ .HEADER := by
    intro items x hx
    rw [entries_part _ _ x hx]
    exact nofun
  intro x hx
  cases h with
  | nothing => cases hx
  | nil h =>
    rcases List.mem_cons.mp hx with rfl | hx
    · exact hp
    · exact after h x hx
  | cnl _ h =>
    rcases List.mem_cons.mp hx with rfl | hx
    · exact hp
    · exact after h x hx
  | cnlMetar => rw [List.mem_singleton.mp hx]; exact hp
  | body => exact items x hx
  | ended =>
    rcases List.mem_append.mp hx with hx | hx
    · exact items x hx
    · rw [List.mem_singleton.mp hx]; exact hp
  | maintenance =>
    rcases List.mem_append.mp hx with hx | hx
    · exact items x hx
    · rw [List.mem_singleton.mp hx]; exact hp
  | remarks _ _ h =>
    rcases List.mem_append.mp hx with hx | hx
    · exact items x hx
    · rcases List.mem_cons.mp hx with rfl | hx
      · exact hp
      · cases h <;> exact remarks x hx

/-- The hour of the report is the hour of its header. -/
theorem hour_of_header {report : Str} {limit : Nat} {r : ParseResult} (hr : Result report limit r) {hs : Words}
    {gs : List GroupInfo} (hg : r.groups = headerEntries hs ++ gs)
    (hh : (∃ ty, FullHeader ty hs) ∨ Opening .time .UNKNOWN hs) (hp : ∀ x ∈ gs, x.reportPart ≠ .HEADER) :
    hourOf r = headerHour hs := by
  have ht : r.reportMetadata.reportTime = lastSaid (fun x => timeValue x.group) r.groups := by
    rw [C85_record hr]
    rfl
  rw [← header_time hh, hourOf, ht, hg, lastSaid_append]
  intro x hx
  exact said_time (C75_said hr x (by rw [hg]; exact List.mem_append_right _ hx)) (hp x hx)

end Metaf.Props
