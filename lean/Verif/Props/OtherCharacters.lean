import Verif.Props.Characters
import Verif.Props.Outcome
import Verif.Props.WithRemarks
import Verif.Proofs.Insertion

/-!
C131: exactly which words with other characters than those of reports are recognised.
-/

namespace Metaf.Props

set_option linter.unusedSectionVars false

open Metaf Metaf.Spec

section C131

variable [FloatIeee]

/-- The entries of the remarks are those of a division of some words. -/
theorem remarks_entry {ty : ReportType} {now : Option Nat} {ws : List Str} {n : Nat} {gs : List GroupInfo}
    {e : ReportError} (h : RemarksMeaning ty now ws n gs e) :
    ∃ us items, DividedRemarks now us items ∧ gs = entries .RMK items ∧ ∀ w ∈ us, w ∈ ws := by
  cases h with
  | all _ h => exact ⟨_, _, h, rfl, fun w h => h⟩
  | maintenance _ _ h =>
    refine ⟨_, _, h, rfl, fun w h => ?_⟩
    rcases List.mem_append.mp h with h | h
    · exact List.mem_append_left _ h
    · exact List.mem_append_right _ (by rw [List.mem_singleton.mp h]; exact List.mem_cons_self)

theorem bodyPart_not {ty : ReportType} : bodyPart ty ≠ .RMK := by cases ty <;> nofun

theorem after_part {err : ReportError} {ws : List Str} {n : Nat} {gs : List GroupInfo} {e : ReportError}
    (h : After err ws n gs e) : ∀ x ∈ gs, x.reportPart ≠ .RMK := by
  cases h with
  | nothing => exact fun x hx => by cases hx
  | word h =>
    intro x hx
    rw [List.mem_singleton.mp hx]
    cases h <;> nofun

theorem headerEntry_part {w : Str} {x : GroupInfo} (h : HeaderEntry w x) : x.reportPart ≠ .RMK := by
  cases h <;> nofun

theorem headerEntries_part {hs : Words} : ∀ x ∈ headerEntries hs, x.reportPart ≠ .RMK := by
  intro x hx
  obtain ⟨a, -, rfl⟩ := List.mem_map.mp hx
  nofun

theorem body_entry_remark {ty : ReportType} {now : Option Nat} {ws : List Str} {n : Nat} {gs : List GroupInfo}
    {e : ReportError} (h : BodyMeaning ty now ws n gs e) {x : GroupInfo} (hx : x ∈ gs) (hp : x.reportPart = .RMK) :
    ∃ now us items, DividedRemarks now us items ∧ x ∈ entries .RMK items ∧ ∀ w ∈ us, w ∈ ws := by
  have no : ∀ {items}, x ∉ entries (bodyPart ty) items := fun h =>
    bodyPart_not ((entries_part _ _ x h).symm.trans hp)
  have one : ∀ {g s}, x ≠ ⟨g, bodyPart ty, s⟩ := fun h => by subst h; exact bodyPart_not hp
  cases h with
  | nothing => cases hx
  | nil h =>
    rcases List.mem_cons.mp hx with h' | h'
    · exact absurd h' one
    · exact absurd hp (after_part h x h')
  | cnl _ h =>
    rcases List.mem_cons.mp hx with h' | h'
    · exact absurd h' one
    · exact absurd hp (after_part h x h')
  | cnlMetar => exact absurd (List.mem_singleton.mp hx) one
  | body => exact absurd hx no
  | ended =>
    rcases List.mem_append.mp hx with h' | h'
    · exact absurd h' no
    · exact absurd (List.mem_singleton.mp h') one
  | maintenance =>
    rcases List.mem_append.mp hx with h' | h'
    · exact absurd h' no
    · exact absurd (List.mem_singleton.mp h') one
  | remarks _ _ h =>
    rcases List.mem_append.mp hx with h' | h'
    · exact absurd h' no
    · rcases List.mem_cons.mp h' with h' | h'
      · exact absurd h' one
      · obtain ⟨us, items, h1, h2, h3⟩ := remarks_entry h
        exact ⟨_, us, items, h1, h2 ▸ h', fun w hw => List.mem_append_right _ (List.mem_cons_of_mem _ (h3 w hw))⟩

theorem meaning_entry {ws : List Str} {n : Nat} {gs : List GroupInfo} {ty : ReportType}
    {e : ReportError} (h : Meaning ws n gs ty e) {x : GroupInfo} (hx : x ∈ gs) (hp : x.reportPart = .RMK) :
    ∃ now us items, DividedRemarks now us items ∧ x ∈ entries .RMK items ∧ ∀ w ∈ us, w ∈ ws := by
  cases h with
  | empty => cases hx
  | cut => exact absurd hp (headerEntries_part x hx)
  | wrong _ _ h =>
    rcases List.mem_append.mp hx with h' | h'
    · exact absurd hp (headerEntries_part x h')
    · rw [List.mem_singleton.mp h'] at hp
      exact absurd hp (headerEntry_part h)
  | nil _ _ h =>
    rcases List.mem_append.mp hx with h' | h'
    · exact absurd hp (headerEntries_part x h')
    · rcases List.mem_cons.mp h' with h' | h'
      · subst h'; cases hp
      · exact absurd hp (after_part h x h')
  | typed _ h =>
    rcases List.mem_append.mp hx with h' | h'
    · exact absurd hp (headerEntries_part x h')
    · obtain ⟨now, us, items, h1, h2, h3⟩ := body_entry_remark h h' hp
      exact ⟨now, us, items, h1, h2, fun w hw => List.mem_append_right _ (h3 w hw)⟩
  | untyped _ _ _ h =>
    rcases List.mem_append.mp hx with h' | h'
    · exact absurd hp (headerEntries_part x h')
    · obtain ⟨now, us, items, h1, h2, h3⟩ := body_entry_remark h h' hp
      exact ⟨now, us, items, h1, h2, fun w hw => List.mem_append_right _ (h3 w hw)⟩

theorem outcome_entry {ws : List Str} {limit : Nat} {gs : List GroupInfo} {ty : ReportType}
    {e : ReportError} (h : Outcome ws limit gs ty e) {x : GroupInfo} (hx : x ∈ gs) (hp : x.reportPart = .RMK) :
    ∃ now us items, DividedRemarks now us items ∧ x ∈ entries .RMK items ∧ ∀ w ∈ us, w ∈ ws := by
  cases h with
  | within h => exact meaning_entry h hx hp
  | tooLarge e h =>
    obtain ⟨now, us, items, h1, h2, h3⟩ := meaning_entry h hx hp
    exact ⟨now, us, items, h1, h2, fun w hw => e ▸ List.mem_append_left _ (h3 w hw)⟩
  | third _ _ _ _ h =>
    rcases List.mem_append.mp hx with h' | h'
    · exact absurd hp (headerEntries_part x h')
    · rw [List.mem_singleton.mp h'] at hp
      exact absurd hp (headerEntry_part h)

/-- The words of an unknown entry are those of unknown items. -/
theorem unknown_items {p : ReportPart} {items : List (Group × List Str)} {x : GroupInfo} {u : UnknownGroup} {w : Str}
    (ht : ∀ it ∈ items, ∀ w ∈ it.2, Parser.Tok w) (hx : x ∈ entries p items) (hu : x.group = .unknown u)
    (hw : w ∈ words x.rawString) : ∃ it ∈ items, w ∈ it.2 ∧ ∃ v, it.1 = .unknown v := by
  induction items generalizing x u w with
  | nil => cases hx
  | cons it items ih =>
    obtain ⟨g, ws⟩ := it
    have e : words (unwords ws) = ws := words_unwords (ht _ List.mem_cons_self)
    have ih' : ∀ {x : GroupInfo} {u : UnknownGroup} {w : Str}, x ∈ entries p items → x.group = .unknown u →
        w ∈ words x.rawString → ∃ it ∈ (g, ws) :: items, w ∈ it.2 ∧ ∃ v, it.1 = .unknown v := by
      intro x u w h1 h2 h3
      obtain ⟨it, a, b⟩ := ih (fun it hi => ht it (List.mem_cons_of_mem _ hi)) h1 h2 h3
      exact ⟨it, List.mem_cons_of_mem _ a, b⟩
    rcases entries_cons p g ws items with ⟨v, v', raw, q, later, rfl, h1, h2⟩ | ⟨-, h2⟩
    · rw [h2] at hx
      rcases List.mem_cons.mp hx with rfl | hx
      · rw [words_append, e] at hw
        rcases List.mem_append.mp hw with hw | hw
        · exact ⟨_, List.mem_cons_self, hw, v, rfl⟩
        · exact ih' (x := ⟨.unknown v', q, raw⟩) (by rw [h1]; exact List.mem_cons_self) rfl hw
      · exact ih' (by rw [h1]; exact List.mem_cons_of_mem _ hx) hu hw
    · rw [h2] at hx
      rcases List.mem_cons.mp hx with rfl | hx
      · rw [e] at hw
        exact ⟨_, List.mem_cons_self, hw, u, hu⟩
      · exact ih' hx hu hw

theorem divided_remark_words {now : Option Nat} {us : List Str} {items : List (Group × List Str)}
    (h : DividedRemarks now us items) : ∀ it ∈ items, ∀ w ∈ it.2, w ∈ us := by
  induction h with
  | nil => exact fun it hi => by cases hi
  | group _ _ _ _ ih =>
    intro it hi w hw
    rcases List.mem_cons.mp hi with rfl | hi
    · exact List.mem_append_left _ hw
    · exact List.mem_append_right _ (ih it hi w hw)
  | lacking _ _ _ _ _ ih =>
    intro it hi w hw
    rcases List.mem_cons.mp hi with rfl | hi
    · exact List.mem_append_left _ hw
    · exact List.mem_append_right _ (ih it hi w hw)
  | ambiguous _ _ _ _ ih =>
    intro it hi w hw
    rcases List.mem_cons.mp hi with rfl | hi
    · cases hw
    rcases List.mem_cons.mp hi with rfl | hi
    · rw [List.mem_singleton.mp hw]; exact List.mem_cons_self
    · exact List.mem_cons_of_mem _ (ih it hi w hw)
  | unknown _ _ ih =>
    intro it hi w hw
    rcases List.mem_cons.mp hi with rfl | hi
    · rw [List.mem_singleton.mp hw]; exact List.mem_cons_self
    · exact List.mem_cons_of_mem _ (ih it hi w hw)

/-- With its types lightning lacks nothing. -/
theorem lightning_complete {now : Option Nat} {ws : List Str} {g : LightningGroup} {c1 c2 : List Cardinal} {next : Str}
    {w : Str} (h : LightningText ws g c1 c2) (hw : w ∈ ws) (hl : LightningWord w)
    (hn : next = [] ∨ ∀ g', ¬ Remark now (ws ++ [next]) g') (ha : ∀ w ∈ ambiguous, ws ≠ [w]) : ¬ Lacking next ws := by
  intro hk
  obtain ⟨md, rfl⟩ := hour_exists now
  obtain ⟨g0, h0, h1⟩ := lacking_group (md := md) hk
  obtain rfl : g0 = .lightning g := by
    rcases C72_unique _ (reads_remark h0) (.lightning h) with h | ⟨w, hw, e⟩
    · exact h
    · exact absurd e (ha w hw)
  have hna := h1 (.lightning (g.append next).1) (g.append next).2 rfl
  have hap : (g.append next).2 ≠ .APPENDED := by
    rcases hn with rfl | hn
    · exact C21_empty_not_absorbed (.lightning g) _ .RMK md _ (fun u => by nofun) rfl
    · intro e
      exact hn _ (reads_remark (.more h0 (show _ = Except.ok (Group.lightning (g.append next).1, _) from by
        rw [← e]; rfl)))
  have hi : (g.append next).2 = .GROUP_INVALIDATED := by
    cases e : (g.append next).2
    · exact absurd e hap
    · exact absurd e hna
    · rfl
  have hinc := (C60_rejected g next hap).2.mp hi
  rcases h with ⟨v, f, hm, rfl, -⟩ | ⟨fw, f, ty, ds, hd, f1, t1, f2, t2, hm, hds, hhd, e, rfl, -⟩
  · rw [List.mem_singleton.mp hw] at hl
    obtain ⟨t, rfl⟩ := hl
    simp [frequencyWords] at hm
  · cases hinc

theorem lightning_remark_text {now : Option Nat} {ws : List Str} {l : LightningGroup} (hr : Remark now ws (.lightning l)) :
    ∃ c1 c2, LightningText ws l c1 c2 := by
  generalize hg : Group.lightning l = g' at hr
  cases hr <;> first
    | (cases hg; done)
    | (cases hg; exact ⟨_, _, by assumption⟩)
    | (rename_i h; subst hg; simp [fixedWords, missingWords] at h)

/-- A word for lightning is in no unknown item of the remarks. -/
theorem divided_lightning {now : Option Nat} {us : List Str} {items : List (Group × List Str)}
    (h : DividedRemarks now us items) {w : Str} (hl : LightningWord w) (hc : ¬ ReportWord w) :
    ∀ it ∈ items, w ∈ it.2 → ∃ l, it.1 = .lightning l := by
  have amb : ∀ x ∈ ambiguous, clean x = true := by decide
  have hc' : ¬ clean w = true := fun h => hc ((clean_iff w).mp h)
  have one : ∀ g, Remark now [w] g → ∃ l, g = .lightning l := by
    intro g hg
    rcases clean_remark hg w List.mem_cons_self with h | h
    · exact absurd h hc'
    · exact h.1
  induction h with
  | nil => exact fun x hx => by cases hx
  | @group ws rest g items hr _ _ _ ih =>
    intro it hi hw
    rcases List.mem_cons.mp hi with rfl | hi
    · rcases clean_remark hr w hw with h | ⟨⟨l, h⟩, -⟩
      · exact absurd h hc'
      · exact ⟨l, by rw [h]; rfl⟩
    · exact ih it hi hw
  | @lacking ws rest g items hr hs hk ha _ ih =>
    intro it hi hw
    rcases List.mem_cons.mp hi with rfl | hi
    · rcases clean_remark hr w hw with h | ⟨⟨l, rfl⟩, -⟩
      · exact absurd h hc'
      · exfalso
        obtain ⟨c1, c2, ht⟩ := lightning_remark_text hr
        refine lightning_complete (now := now) ht hw hl ?_ ha hk
        cases rest with
        | nil => exact Or.inl rfl
        | cons v rest => exact Or.inr (hs v rfl)
    · exact ih it hi hw
  | @ambiguous v rest y items hv _ _ _ ih =>
    intro it hi hw
    rcases List.mem_cons.mp hi with rfl | hi
    · cases hw
    rcases List.mem_cons.mp hi with rfl | hi
    · rw [List.mem_singleton.mp hw] at hc'
      exact absurd (amb v hv) hc'
    · exact ih it hi hw
  | @unknown v rest items hv _ ih =>
    intro it hi hw
    rcases List.mem_cons.mp hi with rfl | hi
    · exfalso
      obtain ⟨t, rfl⟩ := hl
      rw [← List.mem_singleton.mp hw] at hv
      exact hv _ (.lightning (Or.inr ⟨[], .NONE, t, [], [], none, none, none, none, by simp [frequencyWords],
        (fun w hw => by cases hw), .none, rfl, rfl⟩))
    · exact ih it hi hw

/-- C131. Exactly which words with a small letter or another character than those of reports are recognised, whatever
the report, the limit and the error: those in the remarks which begin with `LTG`. All others are in unknown groups. -/
theorem C131_exact {report : Str} {limit : Nat} {r : ParseResult} (h : Result report limit r) {x : GroupInfo}
    (hx : x ∈ r.groups) {w : Str} (hw : w ∈ words x.rawString) (hc : ¬ ReportWord w) :
    (∃ u, x.group = .unknown u) ↔ ¬ (x.reportPart = .RMK ∧ LightningWord w) := by
  constructor
  · rintro ⟨u, hu⟩ ⟨hp, hl⟩
    have ho := (C84_outcome (groups_tokens report)).mp ⟨r, h, rfl, rfl, rfl⟩
    obtain ⟨now, us, items, h1, h2, h3⟩ := outcome_entry ho hx hp
    have ht : ∀ it ∈ items, ∀ w ∈ it.2, Parser.Tok w := fun it hi w hw =>
      Parser.tok_of_mem (h3 w (divided_remark_words h1 it hi w hw))
    obtain ⟨it, hi, hw', v, hv⟩ := unknown_items ht h2 hu hw
    obtain ⟨l, e⟩ := divided_lightning h1 hl hc it hi hw'
    rw [e] at hv
    cases hv
  · intro hn
    have hs := C75_said h x hx
    cases hs with
    | unknown => exact ⟨_, rfl⟩
    | header h => exact absurd (words_clean (clean_header h) w hw) hc
    | afterNil h => exact absurd (words_clean (clean_keyword h) w hw) hc
    | body _ h => exact absurd ((clean_iff w).mp (clean_written h w hw)) hc
    | remark h =>
      rcases clean_remark h w hw with h | ⟨-, h'⟩
      · exact absurd ((clean_iff w).mp h) hc
      · exact absurd ⟨rfl, h'⟩ hn
    | remnant => simp [words, wordsAux] at hw

/-- C131. When the group with such a word is valid: exactly if its first six types are known, whatever follows. -/
theorem C131_valid {report : Str} {limit : Nat} {r : ParseResult} (h : Result report limit r) {x : GroupInfo}
    (hx : x ∈ r.groups) {t : Str} (hw : c!"LTG" ++ t ∈ words x.rawString) (hp : x.reportPart = .RMK)
    (hc : ¬ ReportWord (c!"LTG" ++ t)) :
    ∃ l, x.group = .lightning l ∧ (l.isValid = true ↔ ∀ p ∈ (inPairs t).take 6, p ∈ lightningCodes) := by
  have hu := mt (C131_exact h hx hw hc).mp (fun h => h ⟨hp, t, rfl⟩)
  have hs := C75_said h x hx
  cases hs with
  | unknown => exact absurd ⟨_, rfl⟩ hu
  | header h => exact absurd (words_clean (clean_header h) _ hw) hc
  | afterNil h => exact absurd (words_clean (clean_keyword h) _ hw) hc
  | body _ h => exact absurd ((clean_iff _).mp (clean_written h _ hw)) hc
  | remark h =>
    rcases clean_remark h _ hw with h | ⟨⟨l, rfl⟩, -⟩
    · exact absurd ((clean_iff _).mp h) hc
    · obtain ⟨c1, c2, ht⟩ := lightning_remark_text h
      refine ⟨l, rfl, ?_⟩
      have hcl : ∀ {w}, clean w = true → c!"LTG" ++ t ≠ w := fun h e => hc ((clean_iff _).mp (e ▸ h))
      have ht' := ht
      rcases ht with ⟨v, f, hm, e, -⟩ | ⟨fw, f, ty, ds, hd, f1, t1, f2, t2, hm, hds, hhd, e, -⟩
      · rw [e] at hw
        have hw := List.mem_singleton.mp hw
        subst hw
        simp [frequencyWords] at hm
      · have hf : ∀ x ∈ frequencyWords, ∀ w ∈ x.1, clean w = true := by decide
        obtain rfl : t = ty := by
          rw [e] at hw
          rcases List.mem_append.mp hw with hw | hw
          · exact absurd rfl (hcl (hf _ hm _ hw))
          rcases List.mem_cons.mp hw with hw | hw
          · exact List.append_cancel_left hw
          rcases List.mem_append.mp hw with hw | hw
          · rcases hds _ hw with h | h
            · exact absurd h (hcl (by decide))
            · exact absurd h (hcl (by decide))
          · exact absurd rfl (hcl (clean_two hhd _ hw))
        exact C60_valid _ _ fw ds hd l c1 c2 ht' ⟨f, hm⟩ e
  | remnant => simp [words, wordsAux] at hw

end C131

end Metaf.Props

namespace Metaf.Props

open Metaf Metaf.Spec

attribute [local instance] ieee

/-- Words with small letters in the body and in the remarks, and lightning in both. -/
def mixedLetters : Str := c!"METAR ABCD 010203Z 12005KT LTGic 9999 Q1013 RMK OCNL LTGICcg DSNT slp123="

/-- The cases of C131: in the body the word is unknown, in the remarks it is recognised. -/
example : ∃ r, Result mixedLetters 200 r ∧ r.reportMetadata.error = .NONE ∧
    r.groups.map (fun x => (x.rawString, match x.group with | .unknown _ => false | _ => true)) =
      [(c!"METAR", true), (c!"ABCD", true), (c!"010203Z", true), (c!"12005KT", true), (c!"LTGic", false),
        (c!"9999", true), (c!"Q1013", true), (c!"RMK", true), (c!"OCNL LTGICcg DSNT", true), (c!"slp123", false)] :=
  recognised_some (by kernel_rfl)

example : ¬ ReportWord c!"LTGICcg" ∧ LightningWord c!"LTGICcg" ∧ ¬ ReportWord c!"slp123" := by
  rw [← clean_iff, ← clean_iff]
  exact ⟨by decide, ⟨c!"ICcg", rfl⟩, by decide⟩

end Metaf.Props
