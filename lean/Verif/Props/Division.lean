import Verif.Props.Written

/-!
C69: the division of the body of a report into groups, in terms of the texts only.
-/

set_option linter.unusedSectionVars false

namespace Metaf.Props

open Metaf Metaf.Spec

variable [FloatIeee]

/-- The words `ws` of the body `p` are divided into `items`. Each group is written in its words and takes
as many words as it can: no group is written in its words and the next one. Words which are the beginning
of a group but are not continued, and words which are no group, are unknown. -/
inductive Divided (p : ReportPart) : List Str → List (Group × List Str) → Prop
  | nil : Divided p [] []
  | group {ws rest g items} : Written p ws g → ¬ Unfinished ws →
      (∀ w, rest.head? = some w → ∀ g', ¬ Written p (ws ++ [w]) g') → Divided p rest items →
      Divided p (ws ++ rest) ((g, ws) :: items)
  | broken {ws rest g items} : Written p ws g → Unfinished ws →
      (∀ w, rest.head? = some w → ∀ g', ¬ Written p (ws ++ [w]) g') → Divided p rest items →
      Divided p (ws ++ rest) ((.unknown {}, ws) :: items)
  | unknown {w rest items} : (∀ g, ¬ Written p [w] g) → Divided p rest items →
      Divided p (w :: rest) ((.unknown {}, [w]) :: items)

theorem body_not_rmk {p : ReportPart} (hp : isBody p) : p ≠ .RMK := by
  rintro rfl; rcases hp with h | h <;> cases h

/-- The same words are never two different groups. -/
theorem reads_unique {p : ReportPart} (hp : isBody p) {md : ReportMetadata} {ws : List Str} {g g' : Group}
    (h : Reads p md ws g) (h' : Reads p md ws g') : g = g' := by
  induction h generalizing g' with
  | @first w i g hr =>
    generalize hv : [w] = v at h'
    cases h' with
    | @first w' j _ hr' =>
      obtain rfl := List.singleton_inj.mp hv
      rcases C66_one_kind _ _ _ _ _ _ _ _ hr hr' with rfl | ⟨h, -⟩
      · rw [hr] at hr'
        exact Option.some.inj (Except.ok.inj hr')
      · exact absurd h (body_not_rmk hp)
    | @more ws x _ w' hr' =>
      have := hr'.ne_nil
      cases ws with
      | nil => exact absurd rfl this
      | cons a l => simp at hv
  | @more ws x y w hr ha ih =>
    generalize hv : ws ++ [w] = v at h'
    cases h' with
    | @first w' j _ hr' =>
      have := hr.ne_nil
      cases ws with
      | nil => exact absurd rfl this
      | cons a l => simp at hv
    | @more ws' x' _ w' hr' ha' =>
      obtain ⟨rfl, e⟩ := List.append_inj' hv rfl
      obtain rfl := List.singleton_inj.mp e
      obtain rfl := ih hr'
      rw [ha] at ha'
      exact (Prod.mk.inj (Except.ok.inj ha')).1

/-- C69. The words determine the group. -/
theorem C69_unique {p : ReportPart} (hp : p = .METAR ∨ p = .TAF) {ws : List Str} {g g' : Group}
    (h : Written p ws g) (h' : Written p ws g') : g = g' :=
  reads_unique hp (md := {}) (written_reads hp h) (written_reads hp h')

theorem reads_snoc {p : ReportPart} {md : ReportMetadata} {ws : List Str} {w : Str} {g : Group}
    (h : Reads p md (ws ++ [w]) g) (hne : ws ≠ []) :
    ∃ g0, Reads p md ws g0 ∧ g0.append w p md = .ok (g, .APPENDED) := by
  generalize hv : ws ++ [w] = v at h
  cases h with
  | first =>
    cases ws with
    | nil => exact absurd rfl hne
    | cons a l => simp at hv
  | more hr ha =>
    obtain ⟨rfl, e⟩ := List.append_inj' hv rfl
    obtain rfl := List.singleton_inj.mp e
    exact ⟨_, hr, ha⟩

theorem taken_iff {p : ReportPart} (hp : isBody p) {md : ReportMetadata} {ws : List Str} {g : Group}
    (h : Reads p md ws g) (w : Str) :
    (∃ g', g.append w p md = .ok (g', .APPENDED)) ↔ ∃ g', Written p (ws ++ [w]) g' := by
  constructor
  · rintro ⟨g', ha⟩
    exact ⟨g', reads_written hp (.more h ha)⟩
  · rintro ⟨g', hw⟩
    obtain ⟨g0, h0, ha⟩ := reads_snoc (written_reads hp (md := md) hw) h.ne_nil
    obtain rfl := reads_unique hp h h0
    exact ⟨g', ha⟩

theorem unfinished_append {p : ReportPart} (hp : isBody p) {md : ReportMetadata} {ws : List Str} {g g' : Group}
    {w : Str} {r : AppendResult} (h : Reads p md ws g) (hu : Unfinished ws)
    (ha : g.append w p md = .ok (g', r)) (hr : r ≠ .APPENDED) : r = .GROUP_INVALIDATED := by
  have notaf : ∀ {i g}, recognise i c!"WS" .TAF md ≠ .ok (some g) := by
    intro i g hi
    have := (recognise_shape hi).1
    interval_cases i <;> cases hi
  have shear : ∀ {x : WindGroup}, g = .wind x →
      ws ∈ [[c!"WS"], [c!"WS", c!"ALL"], [c!"WND"], [c!"PK"], [c!"PK", c!"WND"]] → r = .GROUP_INVALIDATED := by
    rintro x rfl hmem
    have hs : WindSequence p (md.reportTime.map (·.hourValue)) ws x := by
      have := reads_written hp h
      cases this with
      | wind h => exact h.now hp
    have ht := (C63_history p md ws x).mpr hs
    simp only [Group.append, Except.ok.injEq, Prod.mk.injEq] at ha
    by_cases hn : ∃ g', WindSequence p (md.reportTime.map (·.hourValue)) (ws ++ [w]) g'
    · obtain ⟨y, hy⟩ := hn
      obtain ⟨x', hx', hap⟩ := (taken_snoc h.ne_nil w y).mp ((C63_history p md _ _).mpr hy)
      rw [ht] at hx'
      obtain rfl := Option.some.inj hx'
      rw [hap] at ha
      exact absurd ha.2.symm hr
    · rcases C63_rejected p md ws x w ht (fun g' h => hn ⟨g', h⟩) with ⟨e, -⟩ | ⟨-, e⟩
      · rw [← ha.2]; exact e
      · exact absurd hmem e
  have miles : ∀ k n, (k = 1 ∨ k = 2) → n < 10 ^ k → ws = [decimal k n] → r = .GROUP_INVALIDATED := by
    rintro k n hk hn rfl
    have hb : BodyVisibility (decimal k n)
        { vis := ⟨.NONE, some (10000 * n), .STATUTE_MILES⟩, incompleteText := .INTEGER } :=
      Or.inl ⟨k, n, hk, hn, rfl, rfl⟩
    obtain rfl := reads_unique hp h (written_reads hp (.visibility hb))
    simp only [Group.append, Except.ok.injEq, Prod.mk.injEq] at ha
    have hn100 : n < 100 := by rcases hk with rfl | rfl <;> omega
    by_cases hf : ∃ f, MilesGroup w ⟨.NONE, some f, .STATUTE_MILES⟩ ∧ f % 10000 ≠ 0
    · obtain ⟨f, h1, h2⟩ := hf
      have := (C47_fraction n hn100 w _).mpr ⟨f, h1, h2, rfl⟩
      rw [this] at ha
      exact absurd ha.2.symm hr
    · rw [← ha.2]
      exact C47_fraction_needed n hn100 w fun f hf' => by
        by_contra h0; exact hf ⟨f, hf', h0⟩
  cases hu with
  | shear =>
    have : p = .METAR := by
      rcases hp with rfl | rfl
      · rfl
      · generalize hv : [c!"WS"] = v at h
        cases h with
        | first hi => obtain rfl := List.singleton_inj.mp hv; exact absurd hi notaf
        | @more l _ _ _ hr' =>
          have := hr'.ne_nil
          cases l with
          | nil => exact absurd rfl this
          | cons a l => simp at hv
    obtain rfl := reads_unique hp h (written_reads hp (.wind (.shear this)))
    exact shear rfl (by simp)
  | shearAll =>
    have : p = .METAR := by
      rcases hp with rfl | rfl
      · rfl
      · obtain ⟨g0, h0, -⟩ := reads_snoc (ws := [c!"WS"]) h (by simp)
        generalize hv : [c!"WS"] = v at h0
        cases h0 with
        | first hi => obtain rfl := List.singleton_inj.mp hv; exact absurd hi notaf
        | @more l _ _ _ hr' =>
          have := hr'.ne_nil
          cases l with
          | nil => exact absurd rfl this
          | cons a l => simp at hv
    obtain rfl := reads_unique hp h (written_reads hp (.wind (.shearAll this)))
    exact shear rfl (by simp)
  | @miles1 a ha' =>
    obtain ⟨n, hn, rfl⟩ := isDigit_iff.mp ha'
    exact miles 1 n (Or.inl rfl) (by omega) (by rw [decimal_one, Nat.mod_eq_of_lt hn])
  | @miles2 a b ha' hb' =>
    obtain ⟨n, hn, rfl⟩ := isDigit_iff.mp ha'
    obtain ⟨m, hm, rfl⟩ := isDigit_iff.mp hb'
    refine miles 2 (10 * n + m) (Or.inr rfl) (by omega) ?_
    rw [decimal_two]
    congr 2
    · rw [show (10 * n + m) / 10 % 10 = n by omega]
    · rw [show (10 * n + m) % 10 = m by omega]

theorem next_not_taken {p : ReportPart} (hp : isBody p) {md : ReportMetadata} {t : Str}
    (ht : t = [] ∨ t ∈ stops p) {ws rest : List Str} {g : Group} (h : Reads p md ws g) :
    (∀ g', g.append (rest.headD t) p md ≠ .ok (g', .APPENDED)) ↔
      ∀ w, rest.head? = some w → ∀ g', ¬ Written p (ws ++ [w]) g' := by
  have key := fun w => taken_iff hp h w
  cases rest with
  | nil =>
    constructor
    · intro _ w hw; cases hw
    · intro _ g' ha
      exact inert_not_taken hp ht (h.plain hp) ha
  | cons a l =>
    simp only [List.headD_cons, List.head?_cons, Option.some.injEq, forall_eq']
    constructor
    · intro h1 g' hw
      obtain ⟨y, hy⟩ := (key a).mpr ⟨g', hw⟩
      exact h1 y hy
    · intro h1 g' ha
      obtain ⟨y, hy⟩ := (key a).mp ⟨g', ha⟩
      exact h1 y hy

theorem not_recognised {p : ReportPart} (hp : isBody p) {md : ReportMetadata} {w : Str} :
    (∀ i g, recognise i w p md ≠ .ok (some g)) ↔ ∀ g, ¬ Written p [w] g := by
  constructor
  · intro h g hw
    have hr := written_reads hp (md := md) hw
    generalize hv : [w] = v at hr
    cases hr with
    | first hi => obtain rfl := List.singleton_inj.mp hv; exact h _ _ hi
    | @more l _ _ _ hr' =>
      have := hr'.ne_nil
      cases l with
      | nil => exact absurd rfl this
      | cons a l => simp at hv
  · intro h i g hi
    exact h g (first_written hp hi)

/-- C69. The division of a body described by the parser's own groups is the one described by the texts. -/
theorem cut_iff_divided {p : ReportPart} (hp : isBody p) {md : ReportMetadata} {t : Str}
    (ht : t = [] ∨ t ∈ stops p) {ws : List Str} {items : List (Group × List Str)} :
    Cut p md t ws items ↔ Divided p ws items := by
  constructor
  · intro h
    induction h with
    | nil => exact .nil
    | @group ws rest g items hr ha _ ih =>
      refine .group (reads_written hp hr) ?_ ((next_not_taken hp ht hr).mp ?_) ih
      · intro hu
        exact nomatch unfinished_append hp hr hu ha (by simp)
      · intro g' h; rw [ha] at h; cases h
    | @broken ws rest g items hr ha _ ih =>
      refine .broken (reads_written hp hr) (C67_unfinished hp hr _ ha).1 ((next_not_taken hp ht hr).mp ?_) ih
      intro g' h; rw [ha] at h; cases h
    | unknown h _ ih => exact .unknown ((not_recognised hp).mp h) ih
  · intro h
    induction h with
    | nil => exact .nil
    | @group ws rest g items hw hu hn _ ih =>
      have hr := written_reads hp (md := md) hw
      obtain ⟨g', r, ha⟩ := append_total (md := md) (hr.plain hp) (rest.headD t)
      cases r with
      | APPENDED => exact absurd ha ((next_not_taken hp ht hr).mpr hn g')
      | NOT_APPENDED =>
        obtain rfl := plain_unchanged (hr.plain hp) ha
        exact .group hr ha ih
      | GROUP_INVALIDATED => exact absurd (C67_unfinished hp hr _ ha).1 hu
    | @broken ws rest g items hw hu hn _ ih =>
      have hr := written_reads hp (md := md) hw
      obtain ⟨g', r, ha⟩ := append_total (md := md) (hr.plain hp) (rest.headD t)
      cases r with
      | APPENDED => exact absurd ha ((next_not_taken hp ht hr).mpr hn g')
      | NOT_APPENDED => exact nomatch unfinished_append hp hr hu ha (by simp)
      | GROUP_INVALIDATED =>
        obtain ⟨rfl, -⟩ := plain_outcome (hr.plain hp) ha rfl
        exact .broken hr ha ih
    | unknown h _ ih => exact .unknown ((not_recognised hp).mpr h) ih

/-- C69. Every sequence of words can be divided. -/
theorem C69_exists {p : ReportPart} (hp : p = .METAR ∨ p = .TAF) (ws : List Str) : ∃ items, Divided p ws items := by
  obtain ⟨items, h⟩ := C68_cut_exists hp {} (Or.inl rfl) ws
  exact ⟨items, (cut_iff_divided hp (Or.inl rfl)).mp h⟩

theorem written_prefix {p : ReportPart} (hp : isBody p) {ws vs : List Str} (hne : ws ≠ []) {g : Group}
    (h : Written p (ws ++ vs) g) : ∃ g', Written p ws g' := by
  induction vs using List.reverseRecOn generalizing g with
  | nil => exact ⟨g, by simpa using h⟩
  | append_singleton vs v ih =>
    rw [← List.append_assoc] at h
    obtain ⟨g0, h0, -⟩ := reads_snoc (written_reads hp (md := {}) h) (by simp [hne])
    exact ih (reads_written hp h0)

theorem written_ne {p : ReportPart} (hp : isBody p) {ws : List Str} {g : Group} (h : Written p ws g) : ws ≠ [] :=
  (written_reads hp (md := {}) h).ne_nil

/-- Of two groups written at the beginning of the same words, both as long as possible, neither is
longer. -/
theorem longest_unique {p : ReportPart} (hp : isBody p) {ws rest ws' rest' : List Str} {g g' : Group}
    (h : Written p ws g) (hn : ∀ w, rest.head? = some w → ∀ g', ¬ Written p (ws ++ [w]) g')
    (h' : Written p ws' g') (hn' : ∀ w, rest'.head? = some w → ∀ g', ¬ Written p (ws' ++ [w]) g')
    (e : ws ++ rest = ws' ++ rest') : ws = ws' ∧ rest = rest' ∧ g = g' := by
  have key : ∀ {ws rest ws' rest' : List Str} {g g' : Group}, Written p ws g →
      (∀ w, rest.head? = some w → ∀ g', ¬ Written p (ws ++ [w]) g') → Written p ws' g' →
      ws ++ rest = ws' ++ rest' → ws' <+: ws := by
    intro ws rest ws' rest' g g' h hn h' e
    rcases List.append_eq_append_iff.mp e with ⟨as, e1, e2⟩ | ⟨as, e1, e2⟩
    · cases as with
      | nil => exact ⟨[], by simpa using e1⟩
      | cons a as =>
        exfalso
        rw [e1, show ws ++ a :: as = (ws ++ [a]) ++ as by simp] at h'
        obtain ⟨x, hx⟩ := written_prefix hp (by simp) h'
        exact hn a (by rw [e2]; rfl) x hx
    · exact ⟨as, e1.symm⟩
  have e1 := (key h hn h' e).eq_of_length_le (key h' hn' h e.symm).length_le
  subst e1
  exact ⟨rfl, List.append_cancel_left e, C69_unique hp h h'⟩

/-- C69. The division is unique. -/
theorem C69_division_unique {p : ReportPart} (hp : p = .METAR ∨ p = .TAF) {ws : List Str}
    {items items' : List (Group × List Str)} (h : Divided p ws items) (h' : Divided p ws items') : items = items' := by
  induction h generalizing items' with
  | nil =>
    generalize hv : ([] : List Str) = v at h'
    cases h' with
    | nil => rfl
    | group hw => exact absurd (List.append_eq_nil_iff.mp hv.symm).1 (written_ne hp hw)
    | broken hw => exact absurd (List.append_eq_nil_iff.mp hv.symm).1 (written_ne hp hw)
    | unknown => cases hv
  | @group ws rest g items hw hu hn hd ih =>
    generalize hv : ws ++ rest = v at h'
    cases h' with
    | nil => exact absurd (List.append_eq_nil_iff.mp hv).1 (written_ne hp hw)
    | group hw' hu' hn' hd' =>
      obtain ⟨rfl, rfl, rfl⟩ := longest_unique hp hw hn hw' hn' hv
      rw [ih hd']
    | broken hw' hu' hn' hd' =>
      obtain ⟨rfl, rfl, rfl⟩ := longest_unique hp hw hn hw' hn' hv
      exact absurd hu' hu
    | @unknown w rest' _ hno hd' =>
      exfalso
      cases ws with
      | nil => exact written_ne hp hw rfl
      | cons a l =>
        obtain ⟨rfl, -⟩ := List.cons.inj hv
        obtain ⟨x, hx⟩ := written_prefix hp (ws := [a]) (vs := l) (by simp) hw
        exact hno x hx
  | @broken ws rest g items hw hu hn hd ih =>
    generalize hv : ws ++ rest = v at h'
    cases h' with
    | nil => exact absurd (List.append_eq_nil_iff.mp hv).1 (written_ne hp hw)
    | group hw' hu' hn' hd' =>
      obtain ⟨rfl, rfl, rfl⟩ := longest_unique hp hw hn hw' hn' hv
      exact absurd hu hu'
    | broken hw' hu' hn' hd' =>
      obtain ⟨rfl, rfl, rfl⟩ := longest_unique hp hw hn hw' hn' hv
      rw [ih hd']
    | @unknown w rest' _ hno hd' =>
      exfalso
      cases ws with
      | nil => exact written_ne hp hw rfl
      | cons a l =>
        obtain ⟨rfl, -⟩ := List.cons.inj hv
        obtain ⟨x, hx⟩ := written_prefix hp (ws := [a]) (vs := l) (by simp) hw
        exact hno x hx
  | @unknown w rest items hno hd ih =>
    have clash : ∀ {ws rest' : List Str} {g : Group}, Written p ws g → w :: rest = ws ++ rest' → False := by
      intro ws rest' g hw e
      cases ws with
      | nil => exact written_ne hp hw rfl
      | cons a l =>
        obtain ⟨rfl, -⟩ := List.cons.inj e
        obtain ⟨x, hx⟩ := written_prefix hp (ws := [w]) (vs := l) (by simp) hw
        exact hno x hx
    generalize hv : w :: rest = v at h'
    cases h' with
    | nil => cases hv
    | group hw' => exact (clash hw' hv).elim
    | broken hw' => exact (clash hw' hv).elim
    | unknown hno' hd' =>
      obtain ⟨rfl, rfl⟩ := List.cons.inj hv
      rw [ih hd']

/-- C69. The result of parsing a report without remarks, in terms of its text only: the header, and
then the groups into which the words of the body are divided. -/
theorem C69_body {report : Str} {limit : Nat} {ty : ReportType} {hs : List (Str × Group)} {body : List Str}
    {items : List (Group × List Str)} (hh : Header ty hs)
    (ht : Groups report (hs.map Prod.fst ++ body)) (hne : body ≠ [])
    (hs' : ∀ w ∈ body, w ∉ stops (bodyPart ty)) (hl : hs.length + body.length < limit)
    (hd : Divided (bodyPart ty) body items) :
    ∃ r, Result report limit r ∧ r.reportMetadata.type = ty ∧ r.reportMetadata.error = .NONE ∧
      r.groups = hs.map (fun x => ⟨x.2, .HEADER, x.1⟩) ++ entries (bodyPart ty) items := by
  have hp : isBody (bodyPart ty) := by rcases bodyType hh with rfl | rfl <;> simp [isBody, bodyPart]
  exact C68_body hh ht hne hs' hl ((cut_iff_divided hp (Or.inl rfl)).mpr hd)

/-- C69. The result of parsing a report with remarks: the header and the groups into which the words of
the body are divided, which do not depend on the remarks, then `RMK`, and then only groups of the remarks. -/
theorem C69_remarks {report : Str} {limit : Nat} {ty : ReportType} {hs : List (Str × Group)} {body rmk : List Str}
    {items : List (Group × List Str)} (hh : Header ty hs)
    (ht : Groups report (hs.map Prod.fst ++ body ++ c!"RMK" :: rmk))
    (hs' : ∀ w ∈ body, w ∉ stops (bodyPart ty)) (hr : ty = .TAF → c!"$" ∉ rmk)
    (hl : hs.length + body.length + 1 + rmk.length < limit)
    (hd : Divided (bodyPart ty) body items) :
    ∃ r rest, Result report limit r ∧ r.reportMetadata.type = ty ∧ r.reportMetadata.error = .NONE ∧
      r.groups = hs.map (fun x => ⟨x.2, .HEADER, x.1⟩) ++ entries (bodyPart ty) items ++
        ⟨.keyword ⟨.RMK⟩, bodyPart ty, c!"RMK"⟩ :: rest ∧ ∀ x ∈ rest, x.reportPart = .RMK := by
  have hp : isBody (bodyPart ty) := by rcases bodyType hh with rfl | rfl <;> simp [isBody, bodyPart]
  exact C68_remarks hh ht hs' hr hl ((cut_iff_divided hp (Or.inr (rmk_stops _))).mpr hd)

end Metaf.Props
