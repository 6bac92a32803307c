import Verif.Proofs.OutcomeRun

/-!
Every list of words has a meaning, with every limit.
-/

set_option linter.unusedSectionVars false

namespace Metaf.Props

open Metaf Metaf.Spec

variable [FloatIeee]

/-! ### The words have a meaning -/

theorem after_all (err : ReportError) (ws : List Str) : ∃ n gs e, After err ws n gs e := by
  cases ws with
  | nil => exact ⟨_, _, _, .nothing⟩
  | cons w rest =>
    obtain ⟨x, hx⟩ := after_exists w
    exact ⟨_, _, _, .word hx⟩

/-- A list up to the first of some words. -/
theorem first_of (stop : Str → Prop) : ∀ ws : List Str,
    (∀ w ∈ ws, ¬ stop w) ∨ ∃ us w rest, ws = us ++ w :: rest ∧ (∀ u ∈ us, ¬ stop u) ∧ stop w := by
  intro ws
  induction ws with
  | nil => left; simp
  | cons w ws ih =>
    by_cases h : stop w
    · exact Or.inr ⟨[], w, ws, rfl, by simp, h⟩
    · rcases ih with ih | ⟨us, w', rest, rfl, h1, h2⟩
      · left
        intro x hx
        rcases List.mem_cons.mp hx with rfl | hx
        · exact h
        · exact ih x hx
      · right
        refine ⟨w :: us, w', rest, rfl, ?_, h2⟩
        intro x hx
        rcases List.mem_cons.mp hx with rfl | hx
        · exact h
        · exact h1 x hx

theorem remarks_all (ty : ReportType) (now : Option Nat) (ws : List Str) :
    ∃ n gs e, RemarksMeaning ty now ws n gs e := by
  by_cases hty : ty = .TAF
  · rcases first_of (· = c!"$") ws with h | ⟨us, w, rest, rfl, h1, rfl⟩
    · obtain ⟨items, hd⟩ := C73_exists now ws
      exact ⟨_, _, _, .all (fun _ hm => h _ hm rfl) hd⟩
    · obtain ⟨items, hd⟩ := C73_exists now (us ++ [c!"$"])
      exact ⟨_, _, _, .maintenance hty (fun hm => h1 _ hm rfl) hd⟩
  · obtain ⟨items, hd⟩ := C73_exists now ws
    exact ⟨_, _, _, .all (fun e => absurd e hty) hd⟩

theorem body_all {ty : ReportType} (hty : ty = .METAR ∨ ty = .TAF) (now : Option Nat) (ws : List Str) :
    ∃ n gs e, BodyMeaning ty now ws n gs e := by
  have hp := bodyPart_isBody hty
  by_cases hne : ws = []
  · subst hne
    exact ⟨_, _, _, .nothing⟩
  · rcases first_of (· ∈ stops (bodyPart ty)) ws with h | ⟨us, w, rest, rfl, h1, h2⟩
    · obtain ⟨items, hd⟩ := C69_exists hp ws
      exact ⟨_, _, _, .body hne h hd⟩
    · obtain ⟨items, hd⟩ := C69_exists hp us
      have hcase : w = c!"NIL" ∨ w = c!"CNL" ∨ w = c!"RMK" ∨ ty = .TAF ∧ w = c!"$" := by
        rcases hty with rfl | rfl <;> simp [stops, bodyPart] at h2 <;> simp only [true_and, false_and, reduceCtorEq] <;> tauto
      by_cases hu : us = []
      · subst hu
        rcases hcase with rfl | rfl | rfl | ⟨ht, rfl⟩
        · obtain ⟨n, gs, e, ha⟩ := after_all .UNEXPECTED_GROUP_AFTER_NIL rest
          exact ⟨_, _, _, .nil ha⟩
        · by_cases ht : ty = .TAF
          · obtain ⟨n, gs, e, ha⟩ := after_all .UNEXPECTED_GROUP_AFTER_CNL rest
            exact ⟨_, _, _, .cnl ht ha⟩
          · exact ⟨_, _, _, .cnlMetar ht⟩
        · obtain ⟨n, gs, e, hr⟩ := remarks_all ty now rest
          exact ⟨_, _, _, .remarks h1 hd hr⟩
        · exact ⟨_, _, _, .maintenance ht h1 hd⟩
      · rcases hcase with rfl | rfl | rfl | ⟨ht, rfl⟩
        · exact ⟨_, _, _, .ended hu h1 hd (k := .NIL) (by simp)⟩
        · exact ⟨_, _, _, .ended hu h1 hd (k := .CNL) (by simp)⟩
        · obtain ⟨n, gs, e, hr⟩ := remarks_all ty now rest
          exact ⟨_, _, _, .remarks h1 hd hr⟩
        · exact ⟨_, _, _, .maintenance ht h1 hd⟩

theorem meaning_from : ∀ (ws : List Str) {p : Place} {ty : ReportType} {hs : Words}, Opening p ty hs →
    ∃ n gs ty' e, Meaning (wordsOf hs ++ ws) n gs ty' e := by
  intro ws
  induction ws with
  | nil =>
    intro p ty hs ho
    rw [List.append_nil]
    by_cases hne : hs = []
    · subst hne
      exact ⟨_, _, _, _, .empty⟩
    · exact ⟨_, _, _, _, .cut ho hne⟩
  | cons w ws ih =>
    intro p ty hs ho
    have go : ∀ {p' : Place} {ty' : ReportType} {g : Group}, Opening p' ty' (hs ++ [(w, g)]) →
        ∃ n gs ty' e, Meaning (wordsOf hs ++ w :: ws) n gs ty' e := by
      intro p' ty' g h
      have := ih h
      rwa [wordsOf_append, List.append_assoc] at this
    have full : ∀ {ty' : ReportType} {g : Group}, FullHeader ty' (hs ++ [(w, g)]) →
        ∃ n gs ty' e, Meaning (wordsOf hs ++ w :: ws) n gs ty' e := by
      intro ty' g h
      obtain ⟨n, gs, e, hb⟩ := body_all (full_type h) (headerHour (hs ++ [(w, g)])) ws
      have := Meaning.typed h hb
      rw [wordsOf_append, List.append_assoc] at this
      exact ⟨_, _, _, _, this⟩
    have wrong : ∀ {e : ReportError}, Wrong p ty w e → ∃ n gs ty' e, Meaning (wordsOf hs ++ w :: ws) n gs ty' e := by
      intro e h
      obtain ⟨x, hx⟩ := entry_exists w
      exact ⟨_, _, _, _, .wrong ho h hx⟩
    have isnil : p = .location ∨ p = .time → w = c!"NIL" → ∃ n gs ty' e, Meaning (wordsOf hs ++ w :: ws) n gs ty' e := by
      rintro hp rfl
      obtain ⟨n, gs, e, ha⟩ := after_all .UNEXPECTED_GROUP_AFTER_NIL ws
      exact ⟨_, _, _, _, .nil ho hp ha⟩
    by_cases hloc : (p = .start ∨ p = .type ∨ p = .corrected) ∧ LocationWord w
    · exact go (.location hloc.1 ho hloc.2)
    · have hty := opening_type ho
      cases p with
      | start =>
        have hnl : ¬ LocationWord w := fun h => hloc ⟨Or.inl rfl, h⟩
        by_cases hk : w ∈ [c!"METAR", c!"SPECI", c!"TAF"]
        · cases ho
          simp only [List.mem_cons, List.not_mem_nil, or_false] at hk
          rcases hk with rfl | rfl | rfl
          · exact go .metar
          · exact go .speci
          · exact go .taf
        · have : ty = .UNKNOWN := hty
          subst this
          exact wrong (.start hk hnl)
      | type =>
        have hnl : ¬ LocationWord w := fun h => hloc ⟨Or.inr (Or.inl rfl), h⟩
        by_cases h1 : w = c!"COR"
        · subst h1
          exact go (.cor ho)
        · by_cases h2 : w = c!"AMD"
          · subst h2
            by_cases ht : ty = .TAF
            · subst ht
              exact go (.amd ho)
            · exact wrong (.amd ht)
          · exact wrong (.type (by simp only [List.mem_cons, List.not_mem_nil, or_false, not_or]; exact ⟨h1, h2⟩) hnl)
      | corrected => exact wrong (.corrected fun h => hloc ⟨Or.inr (Or.inr rfl), h⟩)
      | location =>
        by_cases hn : w = c!"NIL"
        · exact isnil (Or.inl rfl) hn
        · by_cases ht : TimeWord w
          · obtain ⟨d, h, m, hd, hh, hm, rfl⟩ := ht
            by_cases hM : ty = .METAR
            · subst hM
              exact full (.metar ho hd hh hm)
            · exact go (.time ho hM hd hh hm)
          · by_cases hT : ty = .TAF ∧ PeriodWord w
            · obtain ⟨rfl, d, h, d', h', k1, k2, k3, k4, rfl⟩ := hT
              exact full (.taf ho k1 k2 k3 k4)
            · exact wrong (.location ht hn fun e hw => hT ⟨e, hw⟩)
      | time =>
        by_cases hn : w = c!"NIL"
        · exact isnil (Or.inr rfl) hn
        · by_cases hw : PeriodWord w
          · obtain ⟨d, h, d', h', k1, k2, k3, k4, rfl⟩ := hw
            exact full (.tafTime ho k1 k2 k3 k4)
          · have hty : ty = .UNKNOWN ∨ ty = .TAF := hty
            rcases hty with rfl | rfl
            · obtain ⟨n, gs, e, hb⟩ := body_all (Or.inl rfl) (headerHour hs) (w :: ws)
              exact ⟨_, _, _, _, .untyped ho hw hn hb⟩
            · exact wrong (.time hw hn)

theorem meaning_exists (ws : List Str) : ∃ n gs ty e, Meaning ws n gs ty e := meaning_from ws .start

/-! ### As many words as the limit allows -/

theorem after_prefix {err e : ReportError} {ws : List Str} {n : Nat} {gs : List GroupInfo} (h : After err ws n gs e)
    {j : Nat} (hj : j ≤ n) : ∃ us rest gs' e', ws = us ++ rest ∧ After err us j gs' e' := by
  cases h with
  | nothing =>
    obtain rfl : j = 0 := by omega
    exact ⟨[], [], _, _, rfl, .nothing⟩
  | @word w rest x hx =>
    rcases Nat.eq_zero_or_pos j with rfl | h
    · exact ⟨[], _, _, _, rfl, .nothing⟩
    · obtain rfl : j = 1 := by omega
      exact ⟨w :: rest, [], _, _, by simp, .word hx⟩

theorem remarks_prefix {ty : ReportType} {now : Option Nat} {ws : List Str} {n : Nat} {gs : List GroupInfo}
    {e : ReportError} (h : RemarksMeaning ty now ws n gs e) {j : Nat} (hj : j ≤ n) :
    ∃ us rest gs' e', ws = us ++ rest ∧ RemarksMeaning ty now us j gs' e' := by
  have short : ∀ ws : List Str, (ty = .TAF → c!"$" ∉ ws) → j ≤ ws.length →
      ∃ gs' e', RemarksMeaning ty now (ws.take j) j gs' e' := by
    intro ws hd hj
    obtain ⟨items, h⟩ := C73_exists now (ws.take j)
    have := RemarksMeaning.all (ty := ty) (fun e hm => hd e (List.mem_of_mem_take hm)) h
    rw [List.length_take_of_le hj] at this
    exact ⟨_, _, this⟩
  cases h with
  | @all ws items hd h =>
    obtain ⟨gs', e', k⟩ := short ws hd hj
    exact ⟨_, _, _, _, (List.take_append_drop j ws).symm, k⟩
  | @maintenance ws rest items ht hd h =>
    by_cases hle : j ≤ ws.length
    · obtain ⟨gs', e', k⟩ := short ws (fun _ => hd) hle
      refine ⟨ws.take j, ws.drop j ++ c!"$" :: rest, _, _, ?_, k⟩
      rw [← List.append_assoc, List.take_append_drop]
    · obtain rfl : j = ws.length + 1 := by omega
      exact ⟨_, [], _, _, (List.append_nil _).symm, .maintenance ht hd h⟩

theorem body_prefix {ty : ReportType} (hty : ty = .METAR ∨ ty = .TAF) {now : Option Nat} {ws : List Str} {n : Nat}
    {gs : List GroupInfo} {e : ReportError} (h : BodyMeaning ty now ws n gs e) {j : Nat} (hj : j ≤ n) :
    ∃ us rest gs' e', ws = us ++ rest ∧ BodyMeaning ty now us j gs' e' := by
  have hp := bodyPart_isBody hty
  rcases Nat.eq_zero_or_pos j with rfl | hpos
  · exact ⟨[], ws, _, _, rfl, .nothing⟩
  have short : ∀ ws : List Str, (∀ w ∈ ws, w ∉ stops (bodyPart ty)) → j ≤ ws.length →
      ∃ gs' e', BodyMeaning ty now (ws.take j) j gs' e' := by
    intro ws hs hj
    obtain ⟨items, h⟩ := C69_exists hp (ws.take j)
    have hlen := List.length_take_of_le hj
    have := BodyMeaning.body (now := now) (ws := ws.take j) (by intro e; rw [e] at hlen; simp at hlen; omega)
      (fun w hm => hs w (List.mem_of_mem_take hm)) h
    rw [hlen] at this
    exact ⟨_, _, this⟩
  have before : ∀ ws rest : List Str, (∀ w ∈ ws, w ∉ stops (bodyPart ty)) → j ≤ ws.length →
      ∃ us rest' gs' e', ws ++ rest = us ++ rest' ∧ BodyMeaning ty now us j gs' e' := by
    intro ws rest hs hj
    obtain ⟨gs', e', k⟩ := short ws hs hj
    refine ⟨ws.take j, ws.drop j ++ rest, _, _, ?_, k⟩
    rw [← List.append_assoc, List.take_append_drop]
  have whole : ∀ {ws : List Str} {gs : List GroupInfo} {e : ReportError}, BodyMeaning ty now ws j gs e →
      ∃ us rest gs' e', ws = us ++ rest ∧ BodyMeaning ty now us j gs' e' :=
    fun h => ⟨_, [], _, _, (List.append_nil _).symm, h⟩
  cases h with
  | nothing => omega
  | nil ha =>
    obtain ⟨i, rfl⟩ : ∃ i, j = i + 1 := ⟨j - 1, by omega⟩
    obtain ⟨us, rest, gs', e', rfl, k⟩ := after_prefix ha (j := i) (by omega)
    exact ⟨_, rest, _, _, rfl, .nil k⟩
  | cnl ht ha =>
    obtain ⟨i, rfl⟩ : ∃ i, j = i + 1 := ⟨j - 1, by omega⟩
    obtain ⟨us, rest, gs', e', rfl, k⟩ := after_prefix ha (j := i) (by omega)
    exact ⟨_, rest, _, _, rfl, .cnl ht k⟩
  | cnlMetar ht =>
    obtain rfl : j = 1 := by omega
    exact whole (.cnlMetar ht)
  | body hne hs hd =>
    obtain ⟨gs', e', k⟩ := short _ hs hj
    exact ⟨_, _, _, _, (List.take_append_drop j ws).symm, k⟩
  | @ended ws rest items w k hne hs hd hk =>
    by_cases hle : j ≤ ws.length
    · exact before ws _ hs hle
    · obtain rfl : j = ws.length + 1 := by omega
      exact whole (.ended hne hs hd hk)
  | @maintenance ws rest items ht hs hd =>
    by_cases hle : j ≤ ws.length
    · exact before ws _ hs hle
    · obtain rfl : j = ws.length + 1 := by omega
      exact whole (.maintenance ht hs hd)
  | @remarks ws rmk items n gs e hs hd hr =>
    by_cases hle : j ≤ ws.length
    · exact before ws _ hs hle
    · obtain ⟨i, rfl⟩ : ∃ i, j = ws.length + 1 + i := ⟨j - (ws.length + 1), by omega⟩
      obtain ⟨us, rest, gs', e', rfl, k⟩ := remarks_prefix hr (j := i) (by omega)
      exact ⟨ws ++ c!"RMK" :: us, rest, _, _, by simp, .remarks hs hd k⟩

theorem opening_prefix {p : Place} {ty : ReportType} {hs : Words} (h : Opening p ty hs) {j : Nat} (hj : j ≤ hs.length) :
    ∃ p' ty', Opening p' ty' (hs.take j) := by
  have snoc : ∀ {p : Place} {ty : ReportType} {hs : Words} {x : Str × Group}, Opening p ty (hs ++ [x]) →
      (j ≤ hs.length → ∃ p' ty', Opening p' ty' (hs.take j)) → j ≤ (hs ++ [x]).length →
      ∃ p' ty', Opening p' ty' ((hs ++ [x]).take j) := by
    intro p ty hs x h ih hj
    by_cases hle : j ≤ hs.length
    · rw [List.take_append_of_le_length hle]
      exact ih hle
    · rw [List.take_of_length_le (by simp only [List.length_append, List.length_cons, List.length_nil]; omega)]
      exact ⟨_, _, h⟩
  have one : ∀ {p : Place} {ty : ReportType} {x : Str × Group}, Opening p ty [x] →
      j ≤ [x].length → ∃ p' ty', Opening p' ty' ([x].take j) := by
    intro p ty x h hj
    refine snoc (hs := []) h ?_ hj
    intro _
    exact ⟨_, _, by simpa using Opening.start⟩
  induction h with
  | start => exact ⟨_, _, by simpa using Opening.start⟩
  | metar => exact one .metar hj
  | speci => exact one .speci hj
  | taf => exact one .taf hj
  | cor h ih => exact snoc (.cor h) ih hj
  | amd h ih => exact snoc (.amd h) ih hj
  | location hp h hl ih => exact snoc (.location hp h hl) ih hj
  | time h hn h1 h2 h3 ih => exact snoc (.time h hn h1 h2 h3) ih hj

theorem full_opening {ty : ReportType} {hs : Words} (h : FullHeader ty hs) {j : Nat} (hj : j < hs.length) :
    ∃ p' ty', Opening p' ty' (hs.take j) := by
  have snoc : ∀ {p : Place} {ty : ReportType} {hs : Words} {x : Str × Group}, Opening p ty hs →
      j < (hs ++ [x]).length → ∃ p' ty', Opening p' ty' ((hs ++ [x]).take j) := by
    intro p ty hs x h hj
    simp only [List.length_append, List.length_cons, List.length_nil] at hj
    rw [List.take_append_of_le_length (by omega)]
    exact opening_prefix h (by omega)
  cases h with
  | metar h => exact snoc h hj
  | taf h => exact snoc h hj
  | tafTime h => exact snoc h hj

/-- Every list of words has an outcome, with every limit. -/
theorem outcome_exists (ws : List Str) (limit : Nat) : ∃ gs ty e, Outcome ws limit gs ty e := by
  obtain ⟨n, gs, ty, e, h⟩ := meaning_exists ws
  by_cases hl : n < max limit 1
  · exact ⟨_, _, _, .within h hl⟩
  · obtain ⟨M, hM⟩ : ∃ M, M = max limit 1 := ⟨_, rfl⟩
    have hM1 : 1 ≤ M := by omega
    rw [← hM] at hl
    have large : ∀ {us rest : List Str} {gs : List GroupInfo} {ty : ReportType} {e : ReportError}, ws = us ++ rest →
        Meaning us M gs ty e → ∃ gs ty e, Outcome ws limit gs ty e :=
      fun h1 h2 => ⟨_, _, _, .tooLarge h1 h2 hM⟩
    have early : ∀ {hs : Words} {rest : List Str}, ws = wordsOf hs ++ rest → M ≤ hs.length →
        (∃ p' ty', Opening p' ty' (hs.take M)) → ∃ gs ty e, Outcome ws limit gs ty e := by
      rintro hs rest hw hle ⟨p', ty', ho⟩
      have hlen := List.length_take_of_le hle
      have hm := Meaning.cut ho (by intro e; rw [e] at hlen; simp at hlen; omega)
      rw [hlen] at hm
      refine large (us := wordsOf (hs.take M)) (rest := wordsOf (hs.drop M) ++ rest) ?_ hm
      rw [hw, ← List.append_assoc, wordsOf, wordsOf, wordsOf, ← List.map_append, List.take_append_drop]
    cases h with
    | empty => omega
    | cut ho hne => exact early (rest := []) (List.append_nil _).symm (by omega) (opening_prefix ho (by omega))
    | @wrong p ty hs w rest x e ho hw hx =>
      by_cases hle : M ≤ hs.length
      · exact early rfl hle (opening_prefix ho hle)
      · obtain rfl : M = hs.length + 1 := by omega
        exact large (List.append_nil _).symm (.wrong ho hw hx)
    | @nil p ty hs ws n gs e ho hp ha =>
      by_cases hle : M ≤ hs.length
      · exact early rfl hle (opening_prefix ho hle)
      · obtain ⟨i, rfl⟩ : ∃ i, M = hs.length + 1 + i := ⟨M - (hs.length + 1), by omega⟩
        obtain ⟨us, rest, gs', e', rfl, k⟩ := after_prefix ha (j := i) (by omega)
        exact large (us := wordsOf hs ++ c!"NIL" :: us) (rest := rest) (by simp) (.nil ho hp k)
    | @typed ty hs ws n gs e hf hb =>
      by_cases hlt : M < hs.length
      · exact early rfl (by omega) (full_opening hf hlt)
      · obtain ⟨i, rfl⟩ : ∃ i, M = hs.length + i := ⟨M - hs.length, by omega⟩
        obtain ⟨us, rest, gs', e', rfl, k⟩ := body_prefix (full_type hf) hb (j := i) (by omega)
        exact large (us := wordsOf hs ++ us) (rest := rest) (by simp) (.typed hf k)
    | @untyped hs w ws n gs e ho hw hn hb =>
      by_cases hle : M ≤ hs.length
      · exact early rfl hle (opening_prefix ho hle)
      · have hlen := untyped_length ho
        by_cases h3 : M = 3
        · obtain ⟨x, hx⟩ := entry_exists w
          exact ⟨_, _, _, .third rfl ho hw hn hx (by omega)⟩
        · obtain ⟨i, rfl⟩ : ∃ i, M = hs.length + 1 + (i + 1) := ⟨M - (hs.length + 2), by omega⟩
          obtain ⟨us, rest, gs', e', hu, k⟩ := body_prefix (Or.inl rfl) hb (j := i + 1) (by omega)
          cases us with
          | nil =>
            exfalso
            generalize hv : ([] : List Str) = v at k
            generalize hm : i + 1 = m at k
            cases k with
            | nothing => omega
            | body hne => exact hne hv.symm
            | _ => simp at hv
          | cons u us =>
            rw [List.cons_append, List.cons.injEq] at hu
            obtain ⟨rfl, rfl⟩ := hu
            exact large (us := wordsOf hs ++ w :: us) (rest := rest) (by simp) (.untyped ho hw hn k)

end Metaf.Props
