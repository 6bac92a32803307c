import Verif.Proofs.RemarkFold
import Verif.Proofs.ParserMeta

/-!
C73: the division of the remarks of a report into groups, in terms of the texts only.
-/

set_option linter.unusedSectionVars false

namespace Metaf.Props

open Metaf Metaf.Spec

variable [FloatIeee]

/-! ### Specification -/

/-- The words of the remarks, in a report made at the hour `now` if it says so, are divided into items.
Each remark takes as many words as it can: no remark begins with its words and the next one. Words which
are of no use without a continuation they do not have, and words which are no remark, are unknown. One of
the five words which are both an obscuration and a phenomenon in the vicinity, if nothing continues it, is
an unknown item after an item of the vicinity without words. -/
inductive DividedRemarks (now : Option Nat) : List Str → List (Group × List Str) → Prop
  | nil : DividedRemarks now [] []
  | group {ws rest g items} : Remark now ws g →
      (∀ w, rest.head? = some w → ∀ g', ¬ Remark now (ws ++ [w]) g') → ¬ Lacking (rest.headD []) ws →
      DividedRemarks now rest items → DividedRemarks now (ws ++ rest) ((settled g, ws) :: items)
  | lacking {ws rest g items} : Remark now ws g →
      (∀ w, rest.head? = some w → ∀ g', ¬ Remark now (ws ++ [w]) g') → Lacking (rest.headD []) ws →
      (∀ w ∈ ambiguous, ws ≠ [w]) →
      DividedRemarks now rest items → DividedRemarks now (ws ++ rest) ((.unknown {}, ws) :: items)
  | ambiguous {w rest y items} : w ∈ Props.ambiguous → Remark now [w] (.vicinity y) →
      (∀ v, rest.head? = some v → ∀ g', ¬ Remark now [w, v] g') →
      DividedRemarks now rest items →
      DividedRemarks now (w :: rest) ((.vicinity y, []) :: (.unknown {}, [w]) :: items)
  | unknown {w rest items} : (∀ g, ¬ Remark now [w] g) → DividedRemarks now rest items →
      DividedRemarks now (w :: rest) ((.unknown {}, [w]) :: items)

/-- The hour of the time of the report given in its header. -/
def headerHour (hs : List (Str × Group)) : Option Nat :=
  hs.findSome? fun x =>
    match x.2 with
    | .reportTime t => some t.t.hourValue
    | _ => none

/-! ### The parser on the remarks -/

theorem hour_exists (now : Option Nat) : ∃ md : ReportMetadata, reportHour md = now :=
  ⟨{ reportTime := now.map fun h => { hourValue := h } }, by cases now <;> rfl⟩

theorem remark_ne {now : Option Nat} {ws : List Str} {g : Group} (h : Remark now ws g) : ws ≠ [] := by
  obtain ⟨md, rfl⟩ := hour_exists now
  exact (remark_reads h).ne_nil

theorem fold_divided {limit : Nat} {ty : ReportType} {now : Option Nat} {ws : List Str}
    {items : List (Group × List Str)} (h : DividedRemarks now ws items) :
    ∀ {v : Parser.Vars} {G : List GroupInfo}, Parser.InRemarks ty v.status → reportHour v.md = now →
    v.groupCount + ws.length < limit → (ty = .TAF → c!"$" ∉ ws) →
    Parser.appendToLastResultGroup v.groups (ws.headD []) .RMK v.md = .ok (G, false) →
    ∃ v', Parser.foldTokens limit ws v = .ok v' ∧ Parser.InRemarks ty v'.status ∧
      Parser.appendToLastResultGroup v'.groups [] .RMK v'.md = .ok (Parser.push .RMK G items, false) ∧
      v'.groupCount = v.groupCount + ws.length := by
  induction h with
  | nil =>
    intro v G hb _ _ _ ha
    exact ⟨v, rfl, hb, ha, rfl⟩
  | @group ws rest g items hr hs hl hd ih =>
    intro v G hb hn hc hdol ha
    rw [List.length_append] at hc
    rw [Parser.headD_append (remark_ne hr)] at ha
    have hna : (∃ w ∈ Props.ambiguous, ws = [w]) → g.index = 6 := by
      rintro ⟨w, hw, rfl⟩
      exact absurd (ambiguous_lacking hw) hl
    obtain ⟨v1, h1, h2, h3, h4, h5⟩ := fold_remark (limit := limit) ws hr hna hb hn (by omega)
      (fun ht hm => hdol ht (by simp [hm])) ha
    have hap := append_settled (md := v1.md) (x := g) (ws := ws) (rest := rest) (G := G)
      (remark_reads (by rw [← h3] at hr; exact hr)) (by subst h3; exact hs) hl
    rw [← h4] at hap
    obtain ⟨v2, k1, k2, k3, k4⟩ := ih h2 h3 (by omega) (fun ht hm => hdol ht (by simp [hm])) hap
    refine ⟨v2, ?_, k2, ?_, by rw [k4, h5, List.length_append]; omega⟩
    · rw [Parser.foldTokens_append, h1]
      exact k1
    · rw [k3]
      have hk : (settled g).isFallback = false := by
        have := reads_known (remark_reads (md := v1.md) (by rw [← h3] at hr; exact hr))
        cases g <;> first | rfl | exact this
      simp only [Parser.push, List.foldl_cons]
      rw [Parser.addGroup_not_fallback hk]
  | @lacking ws rest g items hr hs hl hna hd ih =>
    intro v G hb hn hc hdol ha
    rw [List.length_append] at hc
    rw [Parser.headD_append (remark_ne hr)] at ha
    have hna' : ¬ ∃ w ∈ Props.ambiguous, ws = [w] := fun ⟨w, hw, e⟩ => hna w hw e
    obtain ⟨v1, h1, h2, h3, h4, h5⟩ := fold_remark (limit := limit) ws hr (fun h => absurd h hna') hb hn (by omega)
      (fun ht hm => hdol ht (by simp [hm])) ha
    have hap := append_lacking (md := v1.md) (x := g) (ws := ws) (rest := rest) (G := G)
      (remark_reads (by rw [← h3] at hr; exact hr)) (by subst h3; exact hs) hl hna'
    rw [← h4] at hap
    obtain ⟨v2, k1, k2, k3, k4⟩ := ih h2 h3 (by omega) (fun ht hm => hdol ht (by simp [hm])) hap
    refine ⟨v2, ?_, k2, k3, by rw [k4, h5, List.length_append]; omega⟩
    rw [Parser.foldTokens_append, h1]
    exact k1
  | @ambiguous w rest y items hw hy hs hd ih =>
    intro v G hb hn hc hdol ha
    simp only [List.length_cons] at hc
    obtain ⟨x, hx, hx6⟩ := held_exists hy
    obtain ⟨v1, h1, h2, h3, h4, h5⟩ := fold_remark (limit := limit) [w] hx hx6 hb hn
      (by simp only [List.length_cons, List.length_nil]; omega)
      (fun ht hm => hdol ht (by simp only [List.mem_singleton] at hm; simp [hm])) ha
    have hap := append_ambiguous (md := v1.md) (x := x) (rest := rest) (G := G) hw
      ⟨remark_reads (by rw [← h3] at hx; exact hx), hx6⟩ (remark_reads (by rw [← h3] at hy; exact hy))
      (by subst h3; exact hs)
    rw [show w = unwords [w] from rfl, ← h4] at hap
    simp only [List.length_cons, List.length_nil] at h5
    obtain ⟨v2, k1, k2, k3, k4⟩ := ih h2 h3 (by omega) (fun ht hm => hdol ht (by simp [hm])) hap
    refine ⟨v2, ?_, k2, ?_, by rw [k4, h5, List.length_cons]; omega⟩
    · rw [show w :: rest = [w] ++ rest from rfl, Parser.foldTokens_append, h1]
      exact k1
    · rw [k3]
      have hk : (Group.vicinity y).isFallback = false := rfl
      simp only [Parser.push, List.foldl_cons]
      rw [Parser.addGroup_not_fallback hk]
      rfl
  | @unknown w rest items hu hd ih =>
    intro v G hb hn hc hdol ha
    simp only [List.length_cons] at hc
    have hg : GroupParser.parse w .RMK v.md = .ok (.unknown {}) :=
      (C66_unknown w .RMK v.md).mpr fun i g h => hu g (by rw [← hn]; exact reads_remark (.first h))
    obtain ⟨v1, h1, h2, h3, h4, h5⟩ := remark_step_new (limit := limit) hb (by omega) ha hg
      (fun ht e => hdol ht (by simp only [List.headD_cons] at e; simp [e]))
    simp only [List.headD_cons] at h1 h4
    have hap : Parser.appendToLastResultGroup v1.groups (rest.headD []) .RMK v1.md =
        .ok (Parser.addGroupToResult G (.unknown {}) .RMK w, false) := by
      rw [h4]
      exact Parser.append_fallback_head
    obtain ⟨v2, k1, k2, k3, k4⟩ := ih h2 (h3.trans hn) (by omega) (fun ht hm => hdol ht (by simp [hm])) hap
    refine ⟨v2, ?_, k2, k3, by rw [k4, h5, List.length_cons]; omega⟩
    simp only [Parser.foldTokens, hb.noError, Bool.false_eq_true, if_false, h1]
    exact k1

/-! ### The hour of the report -/

/-- The hour in a group for the time of the report. -/
def groupHour : Group → Option Nat
  | .reportTime t => some t.t.hourValue
  | _ => none

theorem update_hour (g : Group) (md : ReportMetadata) :
    reportHour (Parser.updateMetadata g md) = (groupHour g).or (reportHour md) := by
  cases g with
  | reportTime t => rfl
  | keyword k =>
    obtain ⟨k⟩ := k
    cases k <;> rfl
  | misc m =>
    simp only [Parser.updateMetadata, groupHour, Option.none_or]
    split
    · split <;> rfl
    · rfl
  | trend t =>
    simp only [Parser.updateMetadata, groupHour, Option.none_or]
    split <;> rfl
  | _ => rfl

theorem skel_hour (gs : List GroupInfo) :
    reportHour ((skel gs).foldr Parser.updateMetadata {}) = gs.findSome? fun x => groupHour x.group := by
  induction gs with
  | nil => rfl
  | cons x gs ih =>
    rw [List.findSome?_cons, ← ih]
    obtain ⟨g, p, s⟩ := x
    simp only [skel, List.filterMap_cons]
    cases hs : sig g with
    | some g' =>
      obtain rfl := Parser.sig_eq hs
      simp only [List.foldr_cons]
      rw [update_hour]
      cases groupHour g' <;> rfl
    | none =>
      have : groupHour g = none := by
        cases g <;> first | rfl | (simp [sig] at hs)
      simp only [this]

theorem hour_header {p : ReportPart} (hp : p ≠ .HEADER) {s : Str} {md : ReportMetadata} {g : Group} {i : Nat}
    (h : recognise i s p md = .ok (some g)) : groupHour g = none := by
  cases g with
  | reportTime t =>
    obtain rfl : 2 = i := GroupParser.recognise_index h
    obtain ⟨t', ht, -⟩ := map_some h
    cases p <;> first | exact absurd rfl hp | cases ht
  | _ => rfl

theorem hour_index {g g' : Group} (h : g.index = g'.index) (h' : groupHour g' = none) : groupHour g = none := by
  cases g with
  | reportTime t => cases g' <;> first | (cases h; done) | cases h'
  | _ => rfl

theorem cut_hour {p : ReportPart} (hp : p ≠ .HEADER) {md : ReportMetadata} {t : Str} {ws : List Str}
    {items : List (Group × List Str)} (h : Cut p md t ws items) : ∀ it ∈ items, groupHour it.1 = none := by
  induction h with
  | nil => simp
  | @group ws rest g items hr _ _ ih =>
    intro it hit
    rcases List.mem_cons.mp hit with rfl | hit
    · obtain ⟨w, l, x, -, hx⟩ := reads_first hr
      exact hour_index (GroupParser.recognise_index hx).symm (hour_header hp hx)
    · exact ih it hit
  | broken _ _ _ ih =>
    intro it hit
    rcases List.mem_cons.mp hit with rfl | hit
    · rfl
    · exact ih it hit
  | unknown _ _ ih =>
    intro it hit
    rcases List.mem_cons.mp hit with rfl | hit
    · rfl
    · exact ih it hit

theorem entries_group {p : ReportPart} : ∀ (items : List (Group × List Str)), ∀ x ∈ entries p items,
    ∃ it ∈ items, x.group = it.1
  | [], x, h => by simp [entries] at h
  | (g, ws) :: items, x, h => by
    have ih := entries_group (p := p) items
    simp only [entries] at h
    split at h
    · rename_i he
      rw [he] at ih
      rcases List.mem_cons.mp h with rfl | h
      · exact ⟨_, List.mem_cons_self .., rfl⟩
      · obtain ⟨it, h1, h2⟩ := ih x (by simp [h])
        exact ⟨it, by simp [h1], h2⟩
    · rcases List.mem_cons.mp h with rfl | h
      · exact ⟨_, List.mem_cons_self .., rfl⟩
      · obtain ⟨it, h1, h2⟩ := ih x h
        exact ⟨it, by simp [h1], h2⟩

theorem header_hour {ty : ReportType} {hs : List (Str × Group)} (h : Header ty hs) :
    (hs.reverse.findSome? fun x => groupHour x.2) = headerHour hs := by
  have key : headerHour hs = hs.findSome? fun x => groupHour x.2 := rfl
  rw [key]
  have hkw : ∀ k, groupHour (.keyword k) = none := fun _ => rfl
  have h1 : ∀ {s G}, recognise 1 s .HEADER {} = .ok (some G) → groupHour G = none := by
    intro s G h
    have := GroupParser.recognise_index h
    cases G <;> first | rfl | cases this
  have h3 : ∀ {s G}, recognise 3 s .HEADER {} = .ok (some G) → groupHour G = none := by
    intro s G h
    have := GroupParser.recognise_index h
    cases G <;> first | rfl | cases this
  cases h with
  | metar hk hc hl ht =>
    simp only [List.mem_cons, List.not_mem_nil, or_false] at hk hc
    rcases hk with rfl | rfl <;> rcases hc with rfl | rfl <;>
      simp [List.findSome?_cons, h1 hl, hkw]
  | taf hc hl ht hs =>
    simp only [List.mem_cons, List.not_mem_nil, or_false] at hc
    rcases ht with rfl | ⟨t, T, rfl, ht⟩ <;> rcases hc with rfl | rfl | rfl <;>
      simp [List.findSome?_cons, h1 hl, h3 hs, hkw]

/-! ### Every sequence of words can be divided -/

theorem divided_after (now : Option Nat) (n : Nat)
    (hall : ∀ rest : List Str, rest.length ≤ n → ∃ items, DividedRemarks now rest items) :
    ∀ (rest ws : List Str) (g : Group), rest.length ≤ n → Remark now ws g →
      ∃ items, DividedRemarks now (ws ++ rest) items := by
  intro rest
  induction rest with
  | nil =>
    intro ws g _ hr
    have hs : ∀ w, ([] : List Str).head? = some w → ∀ g', ¬ Remark now (ws ++ [w]) g' := by
      intro w hw; cases hw
    by_cases hl : Lacking [] ws
    · by_cases ha : ∃ w ∈ ambiguous, ws = [w]
      · obtain ⟨w, hw, rfl⟩ := ha
        obtain ⟨md, rfl⟩ := hour_exists now
        obtain ⟨-, y, hy⟩ := C66_ambiguous w md hw
        obtain ⟨y, -, rfl⟩ := map_some hy
        exact ⟨_, .ambiguous hw (reads_remark (.first hy)) hs .nil⟩
      · exact ⟨_, .lacking hr hs hl (fun w hw e => ha ⟨w, hw, e⟩) .nil⟩
    · exact ⟨_, .group hr hs hl .nil⟩
  | cons v rest ih =>
    intro ws g hn hr
    by_cases hc : ∃ g', Remark now (ws ++ [v]) g'
    · obtain ⟨g', hg'⟩ := hc
      obtain ⟨items, hi⟩ := ih (ws ++ [v]) g' (by simp at hn; omega) hg'
      exact ⟨items, by simpa using hi⟩
    · obtain ⟨items, hi⟩ := hall (v :: rest) hn
      have hs : ∀ w, (v :: rest).head? = some w → ∀ g', ¬ Remark now (ws ++ [w]) g' := by
        intro w hw g' h
        cases hw
        exact hc ⟨g', h⟩
      by_cases hl : Lacking v ws
      · by_cases ha : ∃ w ∈ ambiguous, ws = [w]
        · obtain ⟨w, hw, rfl⟩ := ha
          obtain ⟨md, rfl⟩ := hour_exists now
          obtain ⟨-, y, hy⟩ := C66_ambiguous w md hw
          obtain ⟨y, -, rfl⟩ := map_some hy
          exact ⟨_, .ambiguous hw (reads_remark (.first hy)) hs hi⟩
        · exact ⟨_, .lacking hr hs hl (fun w hw e => ha ⟨w, hw, e⟩) hi⟩
      · exact ⟨_, .group hr hs hl hi⟩

/-- C73. Every sequence of words can be divided into remarks. -/
theorem C73_exists (now : Option Nat) (ws : List Str) : ∃ items, DividedRemarks now ws items := by
  have : ∀ n, ∀ ws : List Str, ws.length ≤ n → ∃ items, DividedRemarks now ws items := by
    intro n
    induction n with
    | zero =>
      intro ws h
      obtain rfl : ws = [] := List.length_eq_zero_iff.mp (by omega)
      exact ⟨_, .nil⟩
    | succ n ih =>
      intro ws h
      cases ws with
      | nil => exact ⟨_, .nil⟩
      | cons w rest =>
        by_cases hu : ∀ g, ¬ Remark now [w] g
        · obtain ⟨items, hi⟩ := ih rest (by simp at h; omega)
          exact ⟨_, .unknown hu hi⟩
        · simp only [not_forall, not_not] at hu
          obtain ⟨g, hr⟩ := hu
          exact divided_after now n ih rest [w] g (by simp at h; omega) hr
  exact this _ ws le_rfl

/-! ### In only one way -/

theorem remark_prefix {now : Option Nat} {ws vs : List Str} (hne : ws ≠ []) {g : Group}
    (h : Remark now (ws ++ vs) g) : ∃ g', Remark now ws g' := by
  obtain ⟨md, rfl⟩ := hour_exists now
  induction vs using List.reverseRecOn generalizing g with
  | nil => exact ⟨g, by simpa using h⟩
  | append_singleton vs v ih =>
    rw [← List.append_assoc] at h
    obtain ⟨g0, h0, -⟩ := reads_snoc (remark_reads h) (by simp [hne])
    exact ih (reads_remark h0)

/-- Of two remarks at the beginning of the same words, both as long as possible, neither is longer. -/
theorem longest_remark {now : Option Nat} {ws rest ws' rest' : List Str} {g g' : Group}
    (h : Remark now ws g) (hn : Stopped now ws rest) (h' : Remark now ws' g') (hn' : Stopped now ws' rest')
    (e : ws ++ rest = ws' ++ rest') : ws = ws' ∧ rest = rest' := by
  have key : ∀ {ws rest ws' rest' : List Str} {g g' : Group}, Remark now ws g → Stopped now ws rest →
      Remark now ws' g' → ws ++ rest = ws' ++ rest' → ws' <+: ws := by
    intro ws rest ws' rest' g g' h hn h' e
    rcases List.append_eq_append_iff.mp e with ⟨as, e1, e2⟩ | ⟨as, e1, e2⟩
    · cases as with
      | nil => exact ⟨[], by simpa using e1⟩
      | cons a as =>
        exfalso
        rw [e1, show ws ++ a :: as = (ws ++ [a]) ++ as by simp] at h'
        obtain ⟨x, hx⟩ := remark_prefix (by simp) h'
        exact hn a (by rw [e2]; rfl) x hx
    · exact ⟨as, e1.symm⟩
  have e1 := (key h hn h' e).eq_of_length_le (key h' hn' h e.symm).length_le
  subst e1
  exact ⟨rfl, List.append_cancel_left e⟩

/-- C73. The division is unique. -/
theorem C73_unique (now : Option Nat) {ws : List Str} {items items' : List (Group × List Str)}
    (h : DividedRemarks now ws items) (h' : DividedRemarks now ws items') : items = items' := by
  have first : ∀ {ws rest : List Str} {w : Str} {rest' : List Str} {g : Group}, Remark now ws g →
      ws ++ rest = w :: rest' → ∃ g', Remark now [w] g' := by
    intro ws rest w rest' g hr e
    cases ws with
    | nil => exact absurd rfl (remark_ne hr)
    | cons a l =>
      obtain ⟨rfl, -⟩ := List.cons.inj e
      exact remark_prefix (ws := [a]) (vs := l) (by simp) hr
  have same : ∀ {w : Str} {y y' : VicinityGroup}, Remark now [w] (.vicinity y) → Remark now [w] (.vicinity y') →
      y = y' := by
    intro w y y' h h'
    obtain ⟨md, rfl⟩ := hour_exists now
    have h1 := reads_single (remark_reads h)
    have h2 := reads_single (remark_reads h')
    exact Group.vicinity.inj (same_kind h1 h2)
  induction h generalizing items' with
  | nil =>
    generalize hv : ([] : List Str) = v at h'
    cases h' with
    | nil => rfl
    | group hw => exact absurd (List.append_eq_nil_iff.mp hv.symm).1 (remark_ne hw)
    | lacking hw => exact absurd (List.append_eq_nil_iff.mp hv.symm).1 (remark_ne hw)
    | ambiguous => cases hv
    | unknown => cases hv
  | @group ws rest g items hw hn hu hd ih =>
    generalize hv : ws ++ rest = v at h'
    cases h' with
    | nil => exact absurd (List.append_eq_nil_iff.mp hv).1 (remark_ne hw)
    | group hw' hn' hu' hd' =>
      obtain ⟨rfl, rfl⟩ := longest_remark hw hn hw' hn' hv
      rw [ih hd']
      rcases C72_unique now hw hw' with rfl | ⟨w, h1, rfl⟩
      · rfl
      · exact absurd (ambiguous_lacking h1) hu
    | lacking hw' hn' hu' _ hd' =>
      obtain ⟨rfl, rfl⟩ := longest_remark hw hn hw' hn' hv
      exact absurd hu' hu
    | @ambiguous w rest' y _ hm hw' hn' hd' =>
      obtain ⟨rfl, rfl⟩ := longest_remark (ws' := [w]) hw hn hw' hn' hv
      exact absurd (ambiguous_lacking hm) hu
    | unknown hno hd' =>
      obtain ⟨g', hg'⟩ := first hw hv
      exact absurd hg' (hno g')
  | @lacking ws rest g items hw hn hu hna hd ih =>
    generalize hv : ws ++ rest = v at h'
    cases h' with
    | nil => exact absurd (List.append_eq_nil_iff.mp hv).1 (remark_ne hw)
    | group hw' hn' hu' hd' =>
      obtain ⟨rfl, rfl⟩ := longest_remark hw hn hw' hn' hv
      exact absurd hu hu'
    | lacking hw' hn' hu' _ hd' =>
      obtain ⟨rfl, rfl⟩ := longest_remark hw hn hw' hn' hv
      rw [ih hd']
    | @ambiguous w rest' y _ hm hw' hn' hd' =>
      obtain ⟨rfl, rfl⟩ := longest_remark (ws' := [w]) hw hn hw' hn' hv
      exact absurd rfl (hna w hm)
    | unknown hno hd' =>
      obtain ⟨g', hg'⟩ := first hw hv
      exact absurd hg' (hno g')
  | @ambiguous w rest y items hm hw hn hd ih =>
    generalize hv : w :: rest = v at h'
    cases h' with
    | nil => cases hv
    | group hw' hn' hu' hd' =>
      obtain ⟨rfl, rfl⟩ := longest_remark (ws := [w]) hw hn hw' hn' hv
      exact absurd (ambiguous_lacking hm) hu'
    | lacking hw' hn' hu' hna hd' =>
      obtain ⟨rfl, rfl⟩ := longest_remark (ws := [w]) hw hn hw' hn' hv
      exact absurd rfl (hna w hm)
    | ambiguous hm' hw' hn' hd' =>
      obtain ⟨rfl, rfl⟩ := List.cons.inj hv
      rw [ih hd', same hw hw']
    | unknown hno hd' =>
      obtain ⟨rfl, rfl⟩ := List.cons.inj hv
      exact absurd hw (hno _)
  | @unknown w rest items hno hd ih =>
    generalize hv : w :: rest = v at h'
    cases h' with
    | nil => cases hv
    | group hw' =>
      obtain ⟨g', hg'⟩ := first hw' hv.symm
      exact absurd hg' (hno g')
    | lacking hw' =>
      obtain ⟨g', hg'⟩ := first hw' hv.symm
      exact absurd hg' (hno g')
    | ambiguous hm' hw' hn' hd' =>
      obtain ⟨rfl, rfl⟩ := List.cons.inj hv
      exact absurd hw' (hno _)
    | unknown _ hd' =>
      obtain ⟨rfl, rfl⟩ := List.cons.inj hv
      rw [ih hd']

/-! ### The result of parsing a report -/

/-- C73. The result of parsing a report with remarks: the groups of the header, those into which the words
of the body are divided, `RMK`, and those into which the words of the remarks are divided. -/
theorem C73_report {report : Str} {limit : Nat} {ty : ReportType} {hs : List (Str × Group)} {body rmk : List Str}
    {items ritems : List (Group × List Str)} (hh : Header ty hs)
    (ht : Groups report (hs.map Prod.fst ++ body ++ c!"RMK" :: rmk))
    (hs' : ∀ w ∈ body, w ∉ stops (bodyPart ty)) (hr : ty = .TAF → c!"$" ∉ rmk)
    (hl : hs.length + body.length + 1 + rmk.length < limit)
    (hd : Divided (bodyPart ty) body items) (hdr : DividedRemarks (headerHour hs) rmk ritems) :
    ∃ r, Result report limit r ∧ r.reportMetadata.type = ty ∧ r.reportMetadata.error = .NONE ∧
      r.groups = hs.map (fun x => ⟨x.2, .HEADER, x.1⟩) ++ entries (bodyPart ty) items ++
        ⟨.keyword ⟨.RMK⟩, bodyPart ty, c!"RMK"⟩ :: entries .RMK ritems := by
  have hp : isBody (bodyPart ty) := by rcases bodyType hh with rfl | rfl <;> simp [isBody, bodyPart]
  have hph : bodyPart ty ≠ .HEADER := by rcases hp with h | h <;> rw [h] <;> nofun
  have hc : Cut (bodyPart ty) {} c!"RMK" body items := (cut_iff_divided hp (Or.inr (rmk_stops _))).mpr hd
  obtain ⟨v, h1, h2⟩ := Parser.fold_header (limit := limit) hh (by omega) []
  rw [List.append_nil] at h1
  obtain ⟨v1, k1, k2, -, k4, k5⟩ := Parser.fold_cut (limit := limit) hc h2.body (by rw [h2.count]; omega) hs'
    (h2.closed.append _ _ _)
  rw [h2.count] at k5
  obtain ⟨v2, l1, l2, l3, l4⟩ := Parser.step_rmk (limit := limit) k2 (by omega) k4
  rw [inBody_type (bodyType hh) k2] at l2
  have hf2 : Parser.foldTokens limit (hs.map Prod.fst ++ body ++ [c!"RMK"]) {} = .ok v2 := by
    rw [Parser.foldTokens_append, Parser.foldTokens_append, h1]
    simp only [Parser.foldTokens, k1, k2.noError, l1, Bool.false_eq_true, if_false]
  have htok : ∀ t ∈ hs.map Prod.fst ++ body ++ c!"RMK" :: rmk, Parser.Tok t := by
    intro t h
    rw [← tokens_of_groups ht] at h
    exact Parser.tok_of_mem h
  have hpush : (Parser.push (bodyPart ty) v.groups items).reverse =
      hs.map (fun x => ⟨x.2, .HEADER, x.1⟩) ++ entries (bodyPart ty) items := by
    rw [Parser.push_reverse, header_known h2]
  have hnow : reportHour v2.md = headerHour hs := by
    obtain ⟨v', done, e1, e2, -⟩ := Parser.Run.extend (limit := limit) (hs.map Prod.fst ++ body ++ [c!"RMK"]) [] {}
      (fun t h => htok t (by simp at h ⊢; tauto)) .start
    rw [hf2] at e1
    obtain rfl := Except.ok.inj e1
    rw [e2.meta.2, skel_hour, l3, List.findSome?_cons]
    have : groupHour (.keyword ⟨.RMK⟩) = none := rfl
    simp only [this]
    rw [← List.reverse_reverse (Parser.push _ _ _), hpush, List.reverse_append, List.findSome?_append]
    have hnone : ((entries (bodyPart ty) items).reverse.findSome? fun x => groupHour x.group) = none := by
      rw [List.findSome?_eq_none_iff]
      intro x hx
      obtain ⟨it, hi1, hi2⟩ := entries_group items x (by simpa using hx)
      rw [hi2]
      exact cut_hour hph hc it hi1
    rw [hnone, Option.none_or, ← List.map_reverse, List.findSome?_map]
    exact header_hour hh
  obtain ⟨v3, m1, m2, m3, -⟩ := fold_divided (limit := limit) (ty := ty) hdr l2 hnow (by omega) hr
    (G := v2.groups) (by
      rw [l3]
      rfl)
  have hf : Parser.foldTokens limit (tokens report) {} = .ok v3 := by
    rw [tokens_of_groups ht, show hs.map Prod.fst ++ body ++ c!"RMK" :: rmk =
      (hs.map Prod.fst ++ body ++ [c!"RMK"]) ++ rmk by simp, Parser.foldTokens_append, hf2]
    exact m1
  refine ⟨_, finish_of hf (by rw [m2.part]; exact m3), ?_, ?_, ?_⟩
  · rw [← m2.2.1]
    simp only [Parser.finalMd]
    obtain ⟨-, -, ⟨-, e⟩ | ⟨-, e⟩⟩ := m2 <;> simp [Status.finalTransition, e]
  · rw [← m2.1]
    simp only [Parser.finalMd]
    obtain ⟨-, -, ⟨-, e⟩ | ⟨-, e⟩⟩ := m2 <;> simp [Status.finalTransition, e]
  · rw [Parser.push_reverse, l3, Parser.attach_known (by simp [Group.isFallback]), List.reverse_cons, hpush]
    simp

end Metaf.Props

/-! ### Examples -/

namespace Metaf.Props

open Metaf Metaf.Spec

variable [FloatIeee]

theorem not_continued {md : ReportMetadata} {ws : List Str} {g : Group} {w : Str} (h : Reads .RMK md ws g)
    (ha : ∀ v ∈ ambiguous, ws ≠ [v]) (hn : ∀ g', g.append w .RMK md ≠ .ok (g', .APPENDED)) (g' : Group) :
    ¬ Remark (reportHour md) (ws ++ [w]) g' := by
  intro hr
  obtain ⟨g0, h0, hap⟩ := reads_snoc (remark_reads hr) h.ne_nil
  rcases remark_unique h h0 with rfl | ⟨v, hv, rfl⟩
  · exact hn _ hap
  · exact ha v hv rfl

theorem no_remark {w : Str} (h : ∀ i < 21, recognise i w .RMK {} = .ok none) (g : Group) : ¬ Remark none [w] g := by
  intro hr
  have := reads_single (remark_reads (md := {}) hr)
  rw [h _ (recognise_shape this).1] at this
  cases this

/-- `PK WND` without a wind, a pressure, fog which is nothing in particular, and a word without meaning. -/
theorem example_division : DividedRemarks none [c!"PK", c!"WND", c!"SLP134", c!"FG", c!"XYZ"]
    [(.unknown {}, [c!"PK", c!"WND"]),
     (.pressure ⟨.OBSERVED_SLP, ⟨some (slpOf 134), .HECTOPASCAL⟩, false⟩, [c!"SLP134"]),
     (.vicinity { t := .FOG, incompleteType := .EXPECT_DIST_DIR1 }, []), (.unknown {}, [c!"FG"]),
     (.unknown {}, [c!"XYZ"])] := by
  have h1 : Remark none [c!"PK", c!"WND"] (.wind { windType := .PEAK_WIND, incompleteText := .PK_WND }) :=
    .wind (.peakWord rfl)
  have h2 : Remark none [c!"SLP134"] (.pressure ⟨.OBSERVED_SLP, ⟨some (slpOf 134), .HECTOPASCAL⟩, false⟩) :=
    .seaLevelPressure (n := 134) (by decide)
  have h3 : Remark none [c!"FG"] (.vicinity { t := .FOG, incompleteType := .EXPECT_DIST_DIR1 }) :=
    .vicinity (.kind (Or.inl ⟨_, List.mem_of_getElem? (i := 11) rfl, rfl⟩))
  refine .lacking (ws := [c!"PK", c!"WND"]) h1 ?_ (.phrase (by simp [halfPhrases])) (by simp) ?_
  · intro w hw g' h
    cases hw
    exact not_continued (md := {}) (remark_reads h1) (by simp) (fun g' e => by cases e) g' h
  refine .group (ws := [c!"SLP134"]) (g := .pressure _) h2 ?_ ?_ ?_
  · intro w hw g' h
    cases hw
    exact not_continued (md := {}) (remark_reads h2) (by simp [ambiguous]) (fun g' e => by cases e) g' h
  · intro hl
    obtain ⟨g, hg, hn⟩ := lacking_group (md := {}) hl
    rcases remark_unique (remark_reads (md := {}) h2) hg with rfl | ⟨w, hw, e⟩
    · exact hn _ _ rfl rfl
    · obtain rfl := List.singleton_inj.mp e
      simp [ambiguous] at hw
  refine .ambiguous (by simp [ambiguous]) h3 ?_ (.unknown (no_remark ?_) .nil)
  · intro w hw g' h
    cases hw
    obtain ⟨g0, h0, hap⟩ := reads_snoc (ws := [c!"FG"]) (remark_reads (md := {}) h) (by simp)
    have hr := reads_single h0
    rcases ambiguous_index (by simp [ambiguous]) hr with e | e <;> rw [e] at hr <;> cases hr <;> cases hap
  · intro i hi
    interval_cases i <;> rfl

set_option maxRecDepth 4000 in
/-- The result of parsing a report with these remarks. -/
example : ∃ r, Result c!"TAF ULLI 1122/1222 NSW RMK PK WND SLP134 FG XYZ=" 100 r ∧
    r.reportMetadata.type = .TAF ∧ r.reportMetadata.error = .NONE ∧ ∃ G, r.groups = G ++
      [⟨.keyword ⟨.RMK⟩, .TAF, c!"RMK"⟩, ⟨.unknown {}, .RMK, c!"PK WND"⟩,
       ⟨.pressure ⟨.OBSERVED_SLP, ⟨some (slpOf 134), .HECTOPASCAL⟩, false⟩, .RMK, c!"SLP134"⟩,
       ⟨.vicinity { t := .FOG, incompleteType := .EXPECT_DIST_DIR1 }, .RMK, []⟩,
       ⟨.unknown {}, .RMK, c!"FG XYZ"⟩] := by
  obtain ⟨items, hi⟩ := C69_exists (p := .TAF) (Or.inr rfl) [c!"NSW"]
  have hh : Header .TAF [(c!"TAF", .keyword ⟨.TAF⟩), (c!"ULLI", .location ⟨c!"ULLI"⟩),
      (c!"1122/1222", .trend { t := .TIME_SPAN, isTafTimeSpanGroup := true, tFrom := some ⟨some 11, 22, 0⟩,
                               tTill := some ⟨some 12, 22, 0⟩ })] :=
    .taf (cor := []) (time := []) (by simp) rfl (Or.inl rfl) rfl
  obtain ⟨r, h1, h2, h3, h4⟩ := C73_report (limit := 100) (body := [c!"NSW"]) hh
    (report := c!"TAF ULLI 1122/1222 NSW RMK PK WND SLP134 FG XYZ=")
    (rmk := [c!"PK", c!"WND", c!"SLP134", c!"FG", c!"XYZ"]) (groups_tokens _) (by simp [stops, bodyPart]) (by simp) (by decide) hi (show DividedRemarks none _ _ from example_division)
  exact ⟨r, h1, h2, h3, _, h4⟩

end Metaf.Props
