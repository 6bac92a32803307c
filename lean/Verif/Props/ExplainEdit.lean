import Verif.Props.ExplainTotal
import Verif.Props.RemarkReplacement
import Verif.Props.HeaderMetadata

/-!
C148: how the page made by `explain` (`/repo/examples/explain.cpp`) changes when the report is changed at one place.
-/

set_option linter.unusedSectionVars false

namespace Metaf.Props

open Metaf Metaf.Spec Metaf.Explain

section

variable [FloatIeee]

/-- The two cells of the row of a group: its text, and what is said of it. -/
def RowOf (x : GroupInfo) (row : Str × Str) : Prop :=
  row.1 = x.rawString ∧ visitor.visit x.group x.reportPart x.rawString = .ok row.2

/-- The page with the type and the error of a report and some rows. -/
def pageWith (m : ReportMetadata) (rows : List (Str × Str)) : Str :=
  page (reportTypeToString m.type) (if m.error = .NONE then none else some (reportErrorToString m.error)) rows

theorem rows_unique {gs : List GroupInfo} {a b : List (Str × Str)} (h : List.Forall₂ RowOf gs a)
    (h' : List.Forall₂ RowOf gs b) : a = b := by
  induction h generalizing b with
  | nil => cases h'; rfl
  | cons hx _ ih =>
    cases h' with
    | cons hy ht =>
      rw [ih ht]
      congr 1
      refine Prod.ext (hx.1.trans hy.1.symm) (Except.ok.inj (hx.2.symm.trans hy.2))

theorem rows_zip {gs : List GroupInfo} {es : List Str}
    (h : List.Forall₂ (fun x e => visitor.visit x.group x.reportPart x.rawString = .ok e) gs es) :
    List.Forall₂ RowOf gs ((gs.map (·.rawString)).zip es) := by
  induction h with
  | nil => exact .nil
  | cons hx _ ih => exact .cons ⟨rfl, hx⟩ ih

/-- A report is explained by the page with a row for each of its groups, if there is such a row for each of them, and
only then. -/
theorem explain_rows {memory s out : Str} {r : ParseResult} (hr : Result s 200 r) :
    explain memory s = .ok out ↔ ∃ rows, List.Forall₂ RowOf r.groups rows ∧ out = pageWith r.reportMetadata rows := by
  constructor
  · intro h
    obtain ⟨r0, es, h0, hes, rfl⟩ := C99_page h
    obtain rfl : r0 = r := Except.ok.inj (h0.symm.trans hr)
    exact ⟨_, rows_zip hes, rfl⟩
  · rintro ⟨rows, hrows, rfl⟩
    have ht : Shown (table r) := by
      unfold table
      simp only [shown_cons, shown_nil, Explain.shown_text, Explain.shown_opt, and_true, true_and, implies_true]
      rw [shown_cat]
      intro q hq
      obtain ⟨x, hx, rfl⟩ := List.mem_map.mp hq
      obtain ⟨i, hi, e⟩ := List.getElem_of_mem hx
      have hl := hrows.length_eq
      have := List.forall₂_iff_get.mp hrows |>.2 i hi (hl ▸ hi)
      rw [← e]
      exact row_shown ⟨_, this.2⟩
    obtain ⟨out, ho⟩ := ht
    have he : explain memory s = .ok out := (explain_parsed hr).trans ho
    rw [he]
    obtain ⟨r0, es, h0, hes, rfl⟩ := C99_page he
    obtain rfl : r0 = r := Except.ok.inj (h0.symm.trans hr)
    rw [rows_unique hrows (rows_zip hes)]
    rfl

theorem rows_append {a b : List GroupInfo} {rows : List (Str × Str)} :
    List.Forall₂ RowOf (a ++ b) rows ↔ ∃ ra rb, List.Forall₂ RowOf a ra ∧ List.Forall₂ RowOf b rb ∧ rows = ra ++ rb := by
  induction a generalizing rows with
  | nil => simp
  | cons x a ih =>
    constructor
    · rintro (_ | ⟨hx, h⟩)
      obtain ⟨ra, rb, h1, h2, rfl⟩ := ih.mp h
      exact ⟨_ :: ra, rb, .cons hx h1, h2, rfl⟩
    · rintro ⟨_, rb, _ | ⟨hx, h1⟩, h2, rfl⟩
      exact .cons hx (ih.mpr ⟨_, rb, h1, h2, rfl⟩)

/-- C148. Two reports of the same type with the same error, whose groups are the same but for some between them: if the
first is explained, then the pages are the same but for the rows of these groups, and the second is explained if these
groups are. -/
theorem C148_page {memory memory' s s' out : Str} {r r' : ParseResult} {ga gm gm' gb : List GroupInfo}
    (hr : Result s 200 r) (hr' : Result s' 200 r') (ht : r'.reportMetadata.type = r.reportMetadata.type)
    (he : r'.reportMetadata.error = r.reportMetadata.error) (hg : r.groups = ga ++ (gm ++ gb))
    (hg' : r'.groups = ga ++ (gm' ++ gb)) (hx : explain memory s = .ok out) :
    ∃ ra rm rb, List.Forall₂ RowOf ga ra ∧ List.Forall₂ RowOf gm rm ∧ List.Forall₂ RowOf gb rb ∧
      out = pageWith r.reportMetadata (ra ++ (rm ++ rb)) ∧
      ∀ out', explain memory' s' = .ok out' ↔
        ∃ rm', List.Forall₂ RowOf gm' rm' ∧ out' = pageWith r.reportMetadata (ra ++ (rm' ++ rb)) := by
  obtain ⟨rows, h, rfl⟩ := (explain_rows hr).mp hx
  rw [hg] at h
  obtain ⟨ra, rest, h1, h0, rfl⟩ := rows_append.mp h
  obtain ⟨rm, rb, h2, h3, rfl⟩ := rows_append.mp h0
  have hp : ∀ rows, pageWith r'.reportMetadata rows = pageWith r.reportMetadata rows := fun rows => by
    unfold pageWith
    rw [ht, he]
  refine ⟨ra, rm, rb, h1, h2, h3, rfl, fun out' => ?_⟩
  rw [explain_rows hr', hg']
  constructor
  · rintro ⟨rows, h, rfl⟩
    obtain ⟨ra', rest', h4, h7, rfl⟩ := rows_append.mp h
    obtain ⟨rm', rb', h5, h6, rfl⟩ := rows_append.mp h7
    obtain rfl := rows_unique h1 h4
    obtain rfl := rows_unique h3 h6
    exact ⟨rm', h5, hp _⟩
  · rintro ⟨rm', h4, rfl⟩
    exact ⟨_, rows_append.mpr ⟨ra, _, h1, rows_append.mpr ⟨rm', rb, h4, h3, rfl⟩, rfl⟩, (hp _).symm⟩

/-- C148. Some groups of the body removed, as in C139: their rows are removed, and all else on the page is the same. -/
theorem C148_removed {memory memory' s s' out : Str} {wb : List Str} {r : ParseResult}
    {ga gm gb : List GroupInfo} {x : GroupInfo}
    (hs : Groups s (ga.flatMap (fun x => words x.rawString) ++ (gm.flatMap (fun x => words x.rawString) ++ wb)))
    (hs' : Groups s' (ga.flatMap (fun x => words x.rawString) ++ wb)) (hr : Result s 200 r)
    (he : r.reportMetadata.error = .NONE) (hn : r.reportMetadata.isNil = false)
    (hc : r.reportMetadata.isCancelled = false) (hg : r.groups = ga ++ (gm ++ gb))
    (hl : (ga.flatMap (fun x => words x.rawString) ++ wb).length + 1 < 200)
    (hx : ga.getLast? = some x) (hxp : x.reportPart = bodyPart r.reportMetadata.type) (hxk : Known x)
    (hrm : ∀ y ∈ ga ++ gm, y.group ≠ .keyword ⟨.RMK⟩)
    (hm : (∀ y, gm.getLast? = some y → Known y) ∨ ∀ y, gb.head? = some y → Known y)
    (hbefore : ∀ w, wb.head? = some w →
      ∀ g', ¬ Written (bodyPart r.reportMetadata.type) (words x.rawString ++ [w]) g')
    (ho : explain memory s = .ok out) :
    ∃ ra rm rb, List.Forall₂ RowOf ga ra ∧ List.Forall₂ RowOf gm rm ∧ List.Forall₂ RowOf gb rb ∧
      out = pageWith r.reportMetadata (ra ++ (rm ++ rb)) ∧
      explain memory' s' = .ok (pageWith r.reportMetadata (ra ++ rb)) := by
  obtain ⟨r', h1, h2, h3, h4⟩ := C139_removed hs hs' hr he hn hc hg hl hx hxp hxk hrm hm hbefore
  obtain ⟨ra, rm, rb, ha, hm, hb, e, h⟩ :=
    C148_page (memory' := memory') (gm' := []) hr h1 h3 (h4.trans he.symm) hg h2 ho
  exact ⟨ra, rm, rb, ha, hm, hb, e, (h _).mpr ⟨[], .nil, rfl⟩⟩

/-- C148. Some groups of the body replaced by other words, as in C139: the rows of the new groups are in the place of
their rows, and all else on the page is the same. -/
theorem C148_replaced {memory memory' s s' out : Str} {wb v : List Str} {r : ParseResult}
    {ga gm gb : List GroupInfo} {iv : List (Group × List Str)} {x : GroupInfo}
    (hs : Groups s (ga.flatMap (fun x => words x.rawString) ++ (gm.flatMap (fun x => words x.rawString) ++ wb)))
    (hs' : Groups s' (ga.flatMap (fun x => words x.rawString) ++ (v ++ wb))) (hr : Result s 200 r)
    (he : r.reportMetadata.error = .NONE) (hn : r.reportMetadata.isNil = false)
    (hc : r.reportMetadata.isCancelled = false) (hg : r.groups = ga ++ (gm ++ gb))
    (hl : (ga.flatMap (fun x => words x.rawString) ++ (v ++ wb)).length + 1 < 200)
    (hx : ga.getLast? = some x) (hxp : x.reportPart = bodyPart r.reportMetadata.type) (hxk : Known x)
    (hrm : ∀ y ∈ ga ++ gm, y.group ≠ .keyword ⟨.RMK⟩)
    (hm : (∀ y, gm.getLast? = some y → Known y) ∨ ∀ y, gb.head? = some y → Known y)
    (hd : Divided (bodyPart r.reportMetadata.type) v iv)
    (hst : ∀ w ∈ v, w ∉ stops (bodyPart r.reportMetadata.type))
    (hv : (∀ it, iv.getLast? = some it → ∀ u, it.1 ≠ .unknown u) ∨ ∀ y, gb.head? = some y → Known y)
    (hbefore : ∀ w, (v ++ wb).head? = some w →
      ∀ g', ¬ Written (bodyPart r.reportMetadata.type) (words x.rawString ++ [w]) g')
    (hafter : ∀ it, iv.getLast? = some it → (∃ g, Written (bodyPart r.reportMetadata.type) it.2 g) →
      ∀ w, wb.head? = some w → ∀ g', ¬ Written (bodyPart r.reportMetadata.type) (it.2 ++ [w]) g')
    (ho : explain memory s = .ok out) :
    ∃ ra rm rb, List.Forall₂ RowOf ga ra ∧ List.Forall₂ RowOf gm rm ∧ List.Forall₂ RowOf gb rb ∧
      out = pageWith r.reportMetadata (ra ++ (rm ++ rb)) ∧
      ∀ out', explain memory' s' = .ok out' ↔ ∃ rm',
        List.Forall₂ RowOf (entries (bodyPart r.reportMetadata.type) iv) rm' ∧
        out' = pageWith r.reportMetadata (ra ++ (rm' ++ rb)) := by
  obtain ⟨r', h1, h2, h3, h4⟩ := C139_replaced hs hs' hr he hn hc hg hl hx hxp hxk hrm hm hd hst hv hbefore hafter
  exact C148_page hr h1 h3 (h4.trans he.symm) hg h2 ho

/-- C148. A word which is no group inserted in the body, as in C114: there is one more row, which says so, and all else
on the page is the same. -/
theorem C148_word {memory memory' s s' out : Str} {wb : List Str} {r : ParseResult} {ga gb : List GroupInfo}
    {x : GroupInfo} {u : Str} (hs : Groups s (ga.flatMap (fun x => words x.rawString) ++ wb))
    (hs' : Groups s' (ga.flatMap (fun x => words x.rawString) ++ u :: wb)) (hr : Result s 200 r)
    (he : r.reportMetadata.error = .NONE) (hn : r.reportMetadata.isNil = false)
    (hc : r.reportMetadata.isCancelled = false) (hg : r.groups = ga ++ gb)
    (hl : (ga.flatMap (fun x => words x.rawString) ++ u :: wb).length + 1 < 200)
    (hx : ga.getLast? = some x) (hxp : x.reportPart = bodyPart r.reportMetadata.type) (hxk : Known x)
    (hrm : ∀ y ∈ ga, y.group ≠ .keyword ⟨.RMK⟩) (hb : ∀ y, gb.head? = some y → Known y)
    (hu : ∀ g, ¬ Written (bodyPart r.reportMetadata.type) [u] g) (ho : explain memory s = .ok out) :
    ∃ ra rb, List.Forall₂ RowOf ga ra ∧ List.Forall₂ RowOf gb rb ∧ out = pageWith r.reportMetadata (ra ++ rb) ∧
      explain memory' s' = .ok (pageWith r.reportMetadata
        (ra ++ (u, c!"Not recognised by parser: " ++ u) :: rb)) := by
  obtain ⟨r', h1, h2, h3⟩ := C114_unknown hs hs' hr he hn hc hg hl hx hxp hxk hrm hb hu
  obtain ⟨ra, rm, rb, ha, hm, hb, e, h⟩ := C148_page (memory' := memory') (gm := [])
    (gm' := [⟨.unknown {}, bodyPart r.reportMetadata.type, u⟩]) hr h1 (by rw [h3]) (by rw [h3]) hg h2 ho
  cases hm
  refine ⟨ra, rb, ha, hb, e, (h _).mpr ⟨[(u, c!"Not recognised by parser: " ++ u)], .cons ⟨rfl, ?_⟩ .nil, rfl⟩⟩
  have hv : visitUnknownGroup {} u = .ok (c!"Not recognised by parser: " ++ (u ++ [])) := rfl
  rw [List.append_nil] at hv
  exact hv

/-- C148. Some remarks replaced by other words, as in C143: the rows of the new remarks are in the place of their rows,
and all else on the page is the same. -/
theorem C148_remarks {memory memory' s s' out : Str} {wb v : List Str} {r : ParseResult}
    {ga gm gb : List GroupInfo} {iv : List (Group × List Str)} {x : GroupInfo}
    (hs : Groups s (ga.flatMap (fun x => words x.rawString) ++ (gm.flatMap (fun x => words x.rawString) ++ wb)))
    (hs' : Groups s' (ga.flatMap (fun x => words x.rawString) ++ (v ++ wb))) (hr : Result s 200 r)
    (he : r.reportMetadata.error = .NONE) (hn : r.reportMetadata.isNil = false)
    (hc : r.reportMetadata.isCancelled = false) (hg : r.groups = ga ++ (gm ++ gb))
    (hl : (ga.flatMap (fun x => words x.rawString) ++ (v ++ wb)).length + 1 < 200)
    (hrm : ∃ y ∈ ga, y.group = .keyword ⟨.RMK⟩)
    (hx : ga.getLast? = some x) (hxk : Known x) (hxw : words x.rawString ≠ [])
    (hm : (∀ y, gm.getLast? = some y → Known y ∧ words y.rawString ≠ []) ∨ ∀ y, gb.head? = some y → Known y)
    (hd : DividedRemarks (hourOf r) v iv) (hst : r.reportMetadata.type = .TAF → c!"$" ∉ v)
    (hv : (∀ it, iv.getLast? = some it → ∀ u, it.1 ≠ .unknown u) ∨ ∀ y, gb.head? = some y → Known y)
    (hbefore : x.reportPart = .RMK →
      (∀ w, (v ++ wb).head? = some w → ∀ g', ¬ Remark (hourOf r) (words x.rawString ++ [w]) g') ∧
      ¬ Lacking ((v ++ wb).headD []) (words x.rawString))
    (hafter : ∀ it, iv.getLast? = some it → (∃ g, Remark (hourOf r) it.2 g) →
      (∀ w, wb.head? = some w → ∀ g', ¬ Remark (hourOf r) (it.2 ++ [w]) g') ∧
      (Lacking (wb.headD []) it.2 ↔ Lacking [] it.2))
    (ho : explain memory s = .ok out) :
    ∃ ra rm rb, List.Forall₂ RowOf ga ra ∧ List.Forall₂ RowOf gm rm ∧ List.Forall₂ RowOf gb rb ∧
      out = pageWith r.reportMetadata (ra ++ (rm ++ rb)) ∧
      ∀ out', explain memory' s' = .ok out' ↔ ∃ rm', List.Forall₂ RowOf (entries .RMK iv) rm' ∧
        out' = pageWith r.reportMetadata (ra ++ (rm' ++ rb)) := by
  obtain ⟨r', h1, h2, h3, h4⟩ := C143_replaced hs hs' hr he hn hc hg hl hrm hx hxk hxw hm hd hst hv hbefore hafter
  exact C148_page hr h1 h3 (h4.trans he.symm) hg h2 ho

theorem opening_length {p : Place} {ty : ReportType} {hs : Words} (h : Opening p ty hs) :
    hs.length ≤ match p with | .start => 0 | .type => 1 | .corrected => 2 | .location => 3 | .time => 4 := by
  induction h with
  | start => exact Nat.le_refl _
  | metar | speci | taf => exact Nat.le_refl _
  | cor _ ih | amd _ ih => simp at ih ⊢; omega
  | location hp _ _ ih =>
    rcases hp with rfl | rfl | rfl <;> simp at ih ⊢ <;> first | omega | simp [ih]
  | time _ _ _ _ _ ih => simp at ih ⊢; omega

theorem full_length {ty : ReportType} {hs : Words} (h : FullHeader ty hs) : hs.length ≤ 5 := by
  cases h with
  | metar h _ _ _ | taf h _ _ _ _ | tafTime h _ _ _ _ =>
    have := opening_length h
    simp at this ⊢
    omega

/-- C148. Another header of the same type with the same hour and the same number of words: the rows of the header are
those of the new header, and all else on the page is the same. -/
theorem C148_header {memory memory' s s' out : Str} {ty : ReportType} {hs hs' : Words} {ws : List Str} {r : ParseResult}
    (hf : FullHeader ty hs) (hf' : FullHeader ty hs') (hh : headerHour hs = headerHour hs')
    (hg : Groups s (wordsOf hs ++ ws)) (hg' : Groups s' (wordsOf hs' ++ ws)) (hl : hs.length = hs'.length)
    (hr : Result s 200 r) (hp : PowTen) (ho : explain memory s = .ok out) :
    ∃ rh rh' rb, List.Forall₂ RowOf (headerEntries hs) rh ∧ List.Forall₂ RowOf (headerEntries hs') rh' ∧
      out = pageWith r.reportMetadata (rh ++ rb) ∧
      explain memory' s' = .ok (pageWith r.reportMetadata (rh' ++ rb)) := by
  have : hs.length ≤ 200 := (full_length hf).trans (by decide)
  obtain ⟨r', gs, h1, h2, h3, h4, h5⟩ := C145_header hf hf' hh hg hg' this hr
  rw [hl, Nat.sub_add_cancel (hl ▸ this)] at h1
  obtain ⟨ra, rm, rb, ha, hm, hb, e, h⟩ := C148_page (memory' := memory') (ga := []) (gm := headerEntries hs)
    (gm' := headerEntries hs') (gb := gs) hr h1 h4 h5 h2 h3 ho
  cases ha
  have hx : ∀ x ∈ headerEntries hs', ∃ row, RowOf x row := by
    intro x hx
    obtain ⟨e, he⟩ := visit_shown hp h1 (x := x) (by rw [h3]; exact List.mem_append_left _ hx) (by
      obtain ⟨y, hy, rfl⟩ := List.mem_map.mp hx
      rcases full_piece hf' hy with hp | ⟨d, h, d', h', rfl⟩
      · cases hp <;> exact nofun
      · exact nofun)
    exact ⟨(x.rawString, e), rfl, he⟩
  obtain ⟨rh', hr'⟩ : ∃ rh', List.Forall₂ RowOf (headerEntries hs') rh' := by
    generalize headerEntries hs' = l at hx
    induction l with
    | nil => exact ⟨[], .nil⟩
    | cons x l ih =>
      obtain ⟨row, h0⟩ := hx x (List.mem_cons_self ..)
      obtain ⟨rows, h1⟩ := ih fun y hy => hx y (List.mem_cons_of_mem _ hy)
      exact ⟨row :: rows, .cons h0 h1⟩
  exact ⟨rm, rh', rb, hm, hr', e, (h _).mpr ⟨rh', hr', rfl⟩⟩

end

/-! ### Examples -/

section

attribute [local instance] ieee

theorem explained_of {s : Str} (h : (explain [] s).toOption.isSome = true) : ∃ out, explain [] s = .ok out := by
  cases e : explain [] s with
  | error f => rw [e] at h; cases h
  | ok out => exact ⟨out, rfl⟩

theorem example_explained : ∃ out, explain [] c!"METAR ULLI 112200Z 24005MPS NOSIG RMK AO2 SLP123" = .ok out :=
  explained_of (by kernel_rfl)

set_option maxRecDepth 4000 in
/-- The unknown word `XYZ` between the wind and `NOSIG`. -/
example : ∃ ra rb m, ra.length = 4 ∧ rb.length = 4 ∧
    explain [] c!"METAR ULLI 112200Z 24005MPS NOSIG RMK AO2 SLP123" = .ok (pageWith m (ra ++ rb)) ∧
    explain [] c!"METAR ULLI 112200Z 24005MPS XYZ NOSIG RMK AO2 SLP123" =
      .ok (pageWith m (ra ++ (c!"XYZ", c!"Not recognised by parser: XYZ") :: rb)) := by
  obtain ⟨r, h1, h2, h3, h4, h5, h6⟩ := example_report
  obtain ⟨out, ho⟩ := example_explained
  obtain ⟨ra, rb, ha, hb, e, h⟩ := C148_word (memory' := [])
    (s' := c!"METAR ULLI 112200Z 24005MPS XYZ NOSIG RMK AO2 SLP123")
    (wb := [c!"NOSIG", c!"RMK", c!"AO2", c!"SLP123"]) (u := c!"XYZ")
    (ga := r.groups.take 4) (gb := r.groups.drop 4)
    (x := ⟨.wind (WindText.mk none (.tens 24) (some 5) none .METERS_PER_SECOND).group, .METAR, c!"24005MPS"⟩)
    (by rw [h6]; exact groups_tokens c!"METAR ULLI 112200Z 24005MPS NOSIG RMK AO2 SLP123")
    (by rw [h6]; exact groups_tokens c!"METAR ULLI 112200Z 24005MPS XYZ NOSIG RMK AO2 SLP123") h1 h2 h3 h4
    (List.take_append_drop 4 r.groups).symm (by rw [h6]; exact Nat.le_of_ble_eq_true rfl) (by rw [h6]; rfl)
    (by rw [h5]; rfl) nofun (by rw [h6]; simp) (by rw [h6]; rintro y hy; cases hy; exact nofun)
    (by rw [h5]; exact unwritten (by intro i hi; interval_cases i <;> rfl)) ho
  refine ⟨ra, rb, r.reportMetadata, ?_, ?_, ho.trans (congrArg _ e), h⟩
  · rw [← ha.length_eq, h6]; rfl
  · rw [← hb.length_eq, h6]; rfl

set_option maxRecDepth 4000 in
/-- The group `NOSIG` removed. -/
example : ∃ ra rm rb m, ra.length = 4 ∧ rm.length = 1 ∧ rb.length = 3 ∧
    explain [] c!"METAR ULLI 112200Z 24005MPS NOSIG RMK AO2 SLP123" = .ok (pageWith m (ra ++ (rm ++ rb))) ∧
    explain [] c!"METAR ULLI 112200Z 24005MPS RMK AO2 SLP123" = .ok (pageWith m (ra ++ rb)) := by
  obtain ⟨r, h1, h2, h3, h4, h5, h6⟩ := example_report
  obtain ⟨out, ho⟩ := example_explained
  obtain ⟨ra, rm, rb, ha, hm, hb, e, h⟩ := C148_removed (memory' := [])
    (s' := c!"METAR ULLI 112200Z 24005MPS RMK AO2 SLP123") (wb := [c!"RMK", c!"AO2", c!"SLP123"])
    (ga := r.groups.take 4) (gm := (r.groups.drop 4).take 1) (gb := r.groups.drop 5)
    (x := ⟨.wind (WindText.mk none (.tens 24) (some 5) none .METERS_PER_SECOND).group, .METAR, c!"24005MPS"⟩)
    (by rw [h6]; exact groups_tokens c!"METAR ULLI 112200Z 24005MPS NOSIG RMK AO2 SLP123")
    (by rw [h6]; exact groups_tokens c!"METAR ULLI 112200Z 24005MPS RMK AO2 SLP123") h1 h2 h3 h4
    (by rw [h6]; rfl) (by rw [h6]; exact Nat.le_of_ble_eq_true rfl) (by rw [h6]; rfl)
    (by rw [h5]; rfl) nofun (by rw [h6]; simp) (Or.inl (by rw [h6]; rintro y hy; cases hy; exact nofun))
    (by rw [h5]; rintro w hw; cases hw; exact apart example_wind rfl) ho
  refine ⟨ra, rm, rb, r.reportMetadata, ?_, ?_, ?_, ho.trans (congrArg _ e), h⟩
  · rw [← ha.length_eq, h6]; rfl
  · rw [← hm.length_eq, h6]; rfl
  · rw [← hb.length_eq, h6]; rfl

set_option maxRecDepth 4000 in
/-- The group `NOSIG` replaced by the groups `CAVOK` and `XYZ`, of which the second is unknown. -/
example : ∃ ra rm rm' rb m, ra.length = 4 ∧ rm.length = 1 ∧ rm'.length = 2 ∧ rb.length = 3 ∧
    explain [] c!"METAR ULLI 112200Z 24005MPS NOSIG RMK AO2 SLP123" = .ok (pageWith m (ra ++ (rm ++ rb))) ∧
    explain [] c!"METAR ULLI 112200Z 24005MPS CAVOK XYZ RMK AO2 SLP123" = .ok (pageWith m (ra ++ (rm' ++ rb))) := by
  obtain ⟨r, h1, h2, h3, h4, h5, h6⟩ := example_report
  obtain ⟨out, ho⟩ := example_explained
  obtain ⟨out', ho'⟩ : ∃ out, explain [] c!"METAR ULLI 112200Z 24005MPS CAVOK XYZ RMK AO2 SLP123" = .ok out :=
    explained_of (by kernel_rfl)
  have hv : Written .METAR [c!"CAVOK"] (.keyword ⟨.CAVOK⟩) :=
    .keyword ⟨[.METAR, .TAF], by simp [keywords], by decide⟩
  have hu : ∀ g, ¬ Written .METAR [c!"XYZ"] g := unwritten (by intro i hi; interval_cases i <;> rfl)
  obtain ⟨ra, rm, rb, ha, hm, hb, e, h⟩ := C148_replaced (memory' := [])
    (s' := c!"METAR ULLI 112200Z 24005MPS CAVOK XYZ RMK AO2 SLP123")
    (wb := [c!"RMK", c!"AO2", c!"SLP123"]) (v := [c!"CAVOK", c!"XYZ"])
    (iv := [(.keyword ⟨.CAVOK⟩, [c!"CAVOK"]), (.unknown {}, [c!"XYZ"])])
    (ga := r.groups.take 4) (gm := (r.groups.drop 4).take 1) (gb := r.groups.drop 5)
    (x := ⟨.wind (WindText.mk none (.tens 24) (some 5) none .METERS_PER_SECOND).group, .METAR, c!"24005MPS"⟩)
    (by rw [h6]; exact groups_tokens c!"METAR ULLI 112200Z 24005MPS NOSIG RMK AO2 SLP123")
    (by rw [h6]; exact groups_tokens c!"METAR ULLI 112200Z 24005MPS CAVOK XYZ RMK AO2 SLP123") h1 h2 h3 h4
    (by rw [h6]; rfl) (by rw [h6]; exact Nat.le_of_ble_eq_true rfl) (by rw [h6]; rfl)
    (by rw [h5]; rfl) nofun (by rw [h6]; simp) (Or.inl (by rw [h6]; rintro y hy; cases hy; exact nofun))
    (by
      rw [h5]
      exact .group (ws := [c!"CAVOK"]) hv nofun (by rintro w hw; cases hw; exact apart hv rfl)
        (.unknown hu .nil))
    (by rw [h5]; decide)
    (Or.inr (by rw [h6]; rintro y hy; cases hy; exact nofun))
    (by rw [h5]; rintro w hw; cases hw; exact apart example_wind rfl)
    (by
      rw [h5]
      rintro it hi ⟨g, hg⟩
      cases hi
      exact absurd hg (hu g)) ho
  obtain ⟨rm', hm', e'⟩ := (h out').mp ho'
  refine ⟨ra, rm, rm', rb, r.reportMetadata, ?_, ?_, ?_, ?_, ho.trans (congrArg _ e), ho'.trans (congrArg _ e')⟩
  · rw [← ha.length_eq, h6]; rfl
  · rw [← hm.length_eq, h6]; rfl
  · rw [← hm'.length_eq]; rfl
  · rw [← hb.length_eq, h6]; rfl

set_option maxRecDepth 4000 in
/-- The remark `SLP123` removed. -/
example : ∃ ra rm m, ra.length = 7 ∧ rm.length = 1 ∧
    explain [] c!"METAR ULLI 112200Z 24005MPS NOSIG RMK AO2 SLP123" = .ok (pageWith m (ra ++ rm)) ∧
    explain [] c!"METAR ULLI 112200Z 24005MPS NOSIG RMK AO2" = .ok (pageWith m ra) := by
  obtain ⟨r, h1, h2, h3, h4, h5, h6⟩ := example_report
  obtain ⟨out, ho⟩ := example_explained
  obtain ⟨ra, rm, rb, ha, hm, hb, e, h⟩ := C148_remarks (memory' := [])
    (s' := c!"METAR ULLI 112200Z 24005MPS NOSIG RMK AO2") (wb := []) (v := []) (iv := [])
    (ga := r.groups.take 7) (gm := r.groups.drop 7) (gb := []) (x := ⟨.keyword ⟨.AO2⟩, .RMK, c!"AO2"⟩)
    (by rw [h6]; exact groups_tokens c!"METAR ULLI 112200Z 24005MPS NOSIG RMK AO2 SLP123")
    (by rw [h6]; exact groups_tokens c!"METAR ULLI 112200Z 24005MPS NOSIG RMK AO2") h1 h2 h3 h4
    (by rw [List.append_nil, List.take_append_drop]) (by rw [h6]; exact Nat.le_of_ble_eq_true rfl)
    ⟨⟨.keyword ⟨.RMK⟩, .METAR, c!"RMK"⟩, by rw [h6]; simp, rfl⟩ (by rw [h6]; rfl) nofun (by decide)
    (Or.inr fun y hy => by cases hy) .nil (fun _ h => by cases h) (Or.inr fun y hy => by cases hy)
    (fun _ => ⟨fun w _ => (example_ao2 _ w []).1, (example_ao2 none [] _).2⟩) (fun it hi => by cases hi) ho
  cases hb
  refine ⟨ra, rm, r.reportMetadata, ?_, ?_, ?_, ?_⟩
  · rw [← ha.length_eq, h6]; rfl
  · rw [← hm.length_eq, h6]; rfl
  · rw [ho, e, List.append_nil]
  · refine (h _).mpr ⟨[], .nil, ?_⟩
    simp

/-- The row of `AO2`. -/
example : RowOf ⟨.keyword ⟨.AO2⟩, .RMK, c!"AO2"⟩
    (c!"AO2", c!"This automated station is equipped with a precipitation discriminator") := ⟨rfl, by kernel_rfl⟩

theorem example_ulli : FullHeader .METAR [(c!"METAR", .keyword ⟨.METAR⟩), (c!"ULLI", .location ⟨c!"ULLI"⟩),
    (c!"112200Z", .reportTime ⟨⟨some 11, 22, 0⟩⟩)] :=
  .metar (hs := [(c!"METAR", .keyword ⟨.METAR⟩), (c!"ULLI", .location ⟨c!"ULLI"⟩)]) (d := 11) (h := 22) (m := 0)
    (.location (Or.inr (Or.inl rfl)) .metar ⟨_, _, _, _, rfl, by unfold Capital; decide,
      Or.inl (by unfold Capital; decide), Or.inl (by unfold Capital; decide), Or.inl (by unfold Capital; decide)⟩)
    (by decide) (by decide) (by decide)

theorem example_eddf : FullHeader .METAR [(c!"SPECI", .keyword ⟨.SPECI⟩), (c!"EDDF", .location ⟨c!"EDDF"⟩),
    (c!"012215Z", .reportTime ⟨⟨some 1, 22, 15⟩⟩)] :=
  .metar (hs := [(c!"SPECI", .keyword ⟨.SPECI⟩), (c!"EDDF", .location ⟨c!"EDDF"⟩)]) (d := 1) (h := 22) (m := 15)
    (.location (Or.inr (Or.inl rfl)) .speci ⟨_, _, _, _, rfl, by unfold Capital; decide,
      Or.inl (by unfold Capital; decide), Or.inl (by unfold Capital; decide), Or.inl (by unfold Capital; decide)⟩)
    (by decide) (by decide) (by decide)

set_option maxRecDepth 4000 in
/-- Another header. -/
example (hp : PowTen) : ∃ rh rh' rb m,
    explain [] c!"METAR ULLI 112200Z 24005MPS NOSIG RMK AO2 SLP123" = .ok (pageWith m (rh ++ rb)) ∧
    explain [] c!"SPECI EDDF 012215Z 24005MPS NOSIG RMK AO2 SLP123" = .ok (pageWith m (rh' ++ rb)) := by
  obtain ⟨r, h1, -⟩ := example_report
  obtain ⟨out, ho⟩ := example_explained
  obtain ⟨rh, rh', rb, -, -, e, h⟩ := C148_header (memory' := []) (s' := c!"SPECI EDDF 012215Z 24005MPS NOSIG RMK AO2 SLP123")
    (ws := [c!"24005MPS", c!"NOSIG", c!"RMK", c!"AO2", c!"SLP123"]) example_ulli example_eddf rfl
    (groups_tokens c!"METAR ULLI 112200Z 24005MPS NOSIG RMK AO2 SLP123")
    (groups_tokens c!"SPECI EDDF 012215Z 24005MPS NOSIG RMK AO2 SLP123") rfl h1 hp ho
  exact ⟨rh, rh', rb, r.reportMetadata, ho.trans (congrArg _ e), h⟩

end

end Metaf.Props
