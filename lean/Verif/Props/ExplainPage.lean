import Verif.Proofs.ExplainPage
import Verif.Spec.ExplainPage
import Verif.Ieee
import Verif.Proofs.Util

/-!
C133: the page which explains reports (`/repo/examples/shellfiles/explain_shell.html`) keeps the text in its
address, so that a link to it shows the same text and the same explanation.
-/

set_option linter.unusedSectionVars false

namespace Metaf.Props

open Metaf Metaf.Spec Metaf.ExplainPage

section helpers

theorem units_eq (t : Str) : units t = (t.map Char.toNat).flatMap utf16 := by
  unfold units
  rw [List.flatMap_map]
  congr 1
  funext c
  unfold utf16
  split
  · rfl
  · have := scalar_char c
    unfold Scalar at this
    simp only [List.cons.injEq, and_true]
    omega

theorem scalars (t : Str) : ∀ p ∈ t.map Char.toNat, Scalar p := by
  intro p hp
  obtain ⟨c, _, rfl⟩ := List.mem_map.mp hp
  exact scalar_char c

theorem addressChar_iff (c : Char) : AddressChar c ↔ unescaped c.toNat = true := by
  have h : ∀ a b : Char, a ≤ b ↔ a.toNat ≤ b.toNat := fun a b => Iff.rfl
  have e : ∀ a : Char, c = a ↔ c.toNat = a.toNat := fun a =>
    ⟨fun h => h ▸ rfl, fun h => Char.ext (UInt32.toNat_inj.mp h)⟩
  unfold AddressChar unescaped
  simp only [h, List.mem_cons, List.not_mem_nil, or_false, e, List.contains_cons, List.contains_nil, Bool.or_false,
    Bool.or_eq_true, Bool.and_eq_true, decide_eq_true_eq, beq_iff_eq]
  have : 'A'.toNat = 65 ∧ 'Z'.toNat = 90 ∧ 'a'.toNat = 97 ∧ 'z'.toNat = 122 ∧ '0'.toNat = 48 ∧ '9'.toNat = 57 ∧
    '-'.toNat = 45 ∧ '_'.toNat = 95 ∧ '.'.toNat = 46 ∧ '!'.toNat = 33 ∧ '~'.toNat = 126 ∧ '*'.toNat = 42 ∧
    '\''.toNat = 39 ∧ '('.toNat = 40 ∧ ')'.toNat = 41 := by decide
  omega

theorem escaped_eq : ∀ bs : List UInt8, (bs.flatMap escaped).map Char.toNat = escapes (bs.map UInt8.toNat)
  | [] => rfl
  | b :: bs => by
    have h : ∀ n < 256, ((fun digits : Str => ['%', digits.getD (n / 16) '?', digits.getD (n % 16) '?'])
        ['0', '1', '2', '3', '4', '5', '6', '7', '8', '9', 'A', 'B', 'C', 'D', 'E', 'F']).map Char.toNat =
        [37, hexDigit (n / 16), hexDigit (n % 16)] := by decide +kernel
    have hb := h b.toNat b.toNat_lt
    rw [List.flatMap_cons, List.map_append, escaped_eq bs, List.map_cons, escapes]
    unfold escaped
    simp only at hb ⊢
    rw [hb]
    rfl

theorem address_eq (t : Str) : (address t).map Char.toNat = (t.map Char.toNat).flatMap written := by
  unfold address
  rw [List.map_flatMap, List.flatMap_map]
  congr 1
  funext c
  unfold written
  by_cases h : AddressChar c
  · rw [if_pos h, if_pos ((addressChar_iff c).mp h)]
    rfl
  · rw [if_neg h, if_neg (fun h' => h ((addressChar_iff c).mpr h')), escaped_eq, utf8_encodeChar]

theorem address_safe (t : Str) : ∀ u ∈ (address t).map Char.toNat, fragmentSafe u = true := by
  rw [address_eq]
  intro u hu
  obtain ⟨p, hp, hu⟩ := List.mem_flatMap.mp hu
  exact written_safe (scalars t p hp) u hu

theorem encode_units (t : Str) : encodeURIComponent (units t) = some ((address t).map Char.toNat) := by
  rw [units_eq, address_eq, encode_points (scalars t)]

theorem decode_address (t : Str) : decodeURIComponent ((address t).map Char.toNat) = some (units t) := by
  rw [units_eq, address_eq]
  exact decode_points _ (scalars t) (Nat.le_refl _)

theorem address_ne_nil {t : Str} (h : t ≠ []) : (address t).map Char.toNat ≠ [] := by
  rw [address_eq]
  cases t with
  | nil => exact absurd rfl h
  | cons c t =>
    rw [List.map_cons, List.flatMap_cons]
    exact fun e => written_ne_nil _ (List.append_eq_nil_iff.mp e).1

theorem normalised_cr : ∀ s : JsText, 13 ∉ normalised s
  | [] => by simp [normalised]
  | [u] => by
    unfold normalised
    split
    · simp
    · rename_i h; simpa using fun e => h e.symm
  | u :: v :: rest => by
    unfold normalised
    split
    · split
      · simpa using normalised_cr rest
      · simpa using normalised_cr (v :: rest)
    · rename_i h
      have := normalised_cr (v :: rest)
      simp only [List.mem_cons, not_or]
      exact ⟨fun e => h e.symm, this⟩

theorem units_cons (c : Char) (t : Str) : units (c :: t) =
    (if c.toNat < 0x10000 then [c.toNat] else [0xD7C0 + c.toNat / 1024, 0xDC00 + c.toNat % 1024]) ++ units t := by
  unfold units
  rw [List.flatMap_cons]

theorem toNat_scalar {p : Nat} (h : Scalar p) : ∃ c : Char, c.toNat = p := by
  have hv : p.isValidChar := by
    unfold Scalar at h
    unfold Nat.isValidChar
    omega
  refine ⟨Char.ofNat p, ?_⟩
  unfold Char.ofNat
  rw [dif_pos hv]
  rfl

theorem units_single {u : Nat} (hu : u < 0x10000) (hs : isLeading u = false) (hs' : isTrailing u = false) (t : Str) :
    ∃ t' : Str, u :: units t = units t' := by
  obtain ⟨c, hc⟩ := toNat_scalar (p := u) (by simp [isLeading, isTrailing] at hs hs'; unfold Scalar; omega)
  refine ⟨c :: t, ?_⟩
  rw [units_cons, hc, if_pos hu]
  rfl

theorem units_pair {u v : Nat} (hu : isLeading u = true) (hv : isTrailing v = true) (t : Str) :
    ∃ t' : Str, u :: v :: units t = units t' := by
  simp [isLeading] at hu
  simp [isTrailing] at hv
  obtain ⟨c, hc⟩ := toNat_scalar (p := pairValue u v) (by unfold pairValue Scalar; omega)
  unfold pairValue at hc
  refine ⟨c :: t, ?_⟩
  rw [units_cons, if_neg (by omega)]
  simp only [List.cons_append, List.nil_append, List.cons.injEq, and_true]
  omega

/-- Only texts of characters have an address. -/
theorem units_of_encode : ∀ {s e : JsText}, (∀ u ∈ s, u < 0x10000) → encodeURIComponent s = some e →
    ∃ t : Str, s = units t
  | [], _, _, _ => ⟨[], rfl⟩
  | [u], e, h, he => by
    have hu := h u (by simp)
    by_cases hs : isLeading u = false ∧ isTrailing u = false
    · exact units_single hu hs.1 hs.2 []
    · have hn : unescaped u = false := unescaped_big (by simp [isLeading, isTrailing] at hs; omega)
      have hb : (isLeading u || isTrailing u) = true := by
        cases h1 : isLeading u <;> cases h2 : isTrailing u <;> simp_all
      simp [encodeURIComponent, hn, hb] at he
  | u :: v :: rest, e, h, he => by
    have hu := h u (by simp)
    have htail : (∃ e', encodeURIComponent (v :: rest) = some e') → isLeading u = false → isTrailing u = false →
        ∃ t : Str, u :: v :: rest = units t := by
      rintro ⟨e', he'⟩ h1 h2
      obtain ⟨t, ht⟩ := units_of_encode (fun x hx => h x (List.mem_cons_of_mem _ hx)) he'
      rw [ht]
      exact units_single hu h1 h2 t
    unfold encodeURIComponent at he
    cases hn : unescaped u with
    | true =>
      have := unescaped_lt hn
      simp only [hn, if_true, Option.map_eq_some_iff] at he
      exact htail ⟨_, he.choose_spec.1⟩ (by simp [isLeading]; omega) (by simp [isTrailing]; omega)
    | false =>
      simp only [hn, Bool.false_eq_true, if_false] at he
      cases h2 : isTrailing u with
      | true => simp [h2] at he
      | false =>
        simp only [h2, Bool.false_eq_true, if_false] at he
        cases h1 : isLeading u with
        | false =>
          simp only [h1, Bool.false_eq_true, if_false, Option.map_eq_some_iff] at he
          exact htail ⟨_, he.choose_spec.1⟩ h1 h2
        | true =>
          cases h3 : isTrailing v with
          | false => simp [h1, h3] at he
          | true =>
            simp only [h1, h3, if_true, Option.map_eq_some_iff] at he
            obtain ⟨t, ht⟩ := units_of_encode
              (fun x hx => h x (List.mem_cons_of_mem _ (List.mem_cons_of_mem _ hx))) he.choose_spec.1
            rw [ht]
            exact units_pair h1 h3 t

end helpers

section model

variable [FloatSem]

/-- The explanation of a text, if there is one. -/
def explanation (t : Str) : Option Str :=
  match Explain.explain [] t with
  | .error _ => none
  | .ok result => some result

theorem explanation_text (t : Str) :
    Explain.explain [] (cText (toUtf8 (units t))) = Explain.explain [] (t.takeWhile (· ≠ Char.ofNat 0)) := by
  have h : toUtf8 (units t) = t.flatMap fun c => utf8 c.toNat := by
    rw [units_eq, toUtf8_points (scalars t), List.flatMap_map]
  have hp : ∀ a b : Str, tokens a = tokens b → Parser.parse a = Parser.parse b := by
    intro a b hab
    rw [Parser.parse_eq, Parser.parse_eq, hab]
  unfold Explain.explain
  rw [h, hp _ _ (tokens_cText t)]

/-- What the script does with a text in the input field. -/
theorem explain_units (s : PageState) {t : Str} (h : s.input = units t) :
    ExplainPage.explain s =
      { s with fragment := (address t).map Char.toNat,
               table := if s.ready then explanation (t.takeWhile (· ≠ Char.ofNat 0)) else none } := by
  obtain ⟨ready, input, fragment, table⟩ := s
  simp only at h
  subst h
  unfold ExplainPage.explain clearTable
  simp only [encode_units]
  unfold setHash
  simp only [fragmentEncode_safe (address_safe t), explanation_text, explanation]
  cases ready
  · rfl
  · simp only [Bool.not_true, Bool.false_eq_true, if_false, if_true]
    cases Explain.explain [] (t.takeWhile (· ≠ Char.ofNat 0)) <;> rfl

theorem getInput_address (s : PageState) {t : Str} (ht : t ≠ []) (hcr : 13 ∉ units t)
    (h : s.fragment = (address t).map Char.toNat) : getInputFromHash s = { s with input := units t } := by
  unfold getInputFromHash
  rw [h, if_pos (address_ne_nil ht), decode_address]
  simp only [normalised_same hcr]

theorem explain_input (s : PageState) : (ExplainPage.explain s).input = s.input := by
  unfold ExplainPage.explain clearTable
  simp only
  split
  · rfl
  · unfold setHash
    simp only
    split
    · rfl
    · split <;> rfl

theorem explain_ready (s : PageState) : (ExplainPage.explain s).ready = s.ready := by
  unfold ExplainPage.explain clearTable
  simp only
  split
  · rfl
  · unfold setHash
    simp only
    split
    · rfl
    · split <;> rfl

theorem getInput_ready (s : PageState) : (getInputFromHash s).ready = s.ready := by
  unfold getInputFromHash
  split
  · split <;> rfl
  · simp only
    split <;> rfl

theorem ready_kept : ∀ (es : List Event) (s : PageState), s.ready = true → (es.foldl step s).ready = true
  | [], _, h => h
  | e :: es, s, h => by
    refine ready_kept es _ ?_
    cases e
    · exact (getInput_ready s).trans h
    · exact explain_ready _
    · exact (explain_ready _).trans h

theorem ready_iff : ∀ (es : List Event) (s : PageState),
    (es.foldl step s).ready = (s.ready || decide (Event.started ∈ es))
  | [], s => by simp
  | e :: es, s => by
    rw [List.foldl_cons, ready_iff es]
    cases e
    · simp [step, getInput_ready]
    · simp [step, explain_ready]
    · simp [step, explain_ready]

theorem input_cr : ∀ (es : List Event) (s : PageState), 13 ∉ s.input → 13 ∉ (es.foldl step s).input
  | [], _, h => h
  | e :: es, s, h => by
    refine input_cr es _ ?_
    cases e
    · show 13 ∉ (getInputFromHash s).input
      unfold getInputFromHash
      split
      · split
        · exact h
        · exact normalised_cr _
      · simp only
        split <;> exact normalised_cr _
    · show 13 ∉ (ExplainPage.explain _).input
      rw [explain_input]
      exact h
    · show 13 ∉ (ExplainPage.explain _).input
      rw [explain_input]
      exact normalised_cr _

theorem after_typed (fragment : JsText) (es : List Event) (x : JsText) :
    after fragment (es ++ [.typed x]) = ExplainPage.explain { after fragment es with input := normalised x } := by
  simp [after, step]

theorem after_opened (fragment : JsText) : after fragment [.loaded, .started] =
    ExplainPage.explain { getInputFromHash { fragment := fragment } with ready := true } := by
  simp only [after, List.foldl_cons, List.foldl_nil, step]

theorem after_started (fragment : JsText) : after fragment [.started, .loaded] =
    getInputFromHash (ExplainPage.explain { ready := true, input := [], fragment := fragment }) := by
  simp only [after, List.foldl_cons, List.foldl_nil, step]

theorem after_ready (fragment : JsText) (es : List Event) :
    (after fragment es).ready = decide (Event.started ∈ es) := by
  simp [after, ready_iff]

/-- C133. After the visitor typed something, at whatever address the page was opened and whatever happened
before, the address is the one of the text in the input field, and the table, if the program is ready, is the
explanation of this text up to the first zero character. -/
theorem C133_address (fragment : JsText) (es : List Event) (x : JsText) (t : Str)
    (h : (after fragment (es ++ [.typed x])).input = units t) :
    (after fragment (es ++ [.typed x])).fragment = (address t).map Char.toNat ∧
    (after fragment (es ++ [.typed x])).table =
      if Event.started ∈ es then explanation (t.takeWhile (· ≠ Char.ofNat 0)) else none := by
  rw [after_typed, explain_input] at h
  rw [after_typed, explain_units _ h]
  simp only [after_ready, decide_eq_true_eq, and_self]

/-- C133. If the text in the input field has an unpaired surrogate, so that it is not a text of characters, the
address stays as it was before and the table is empty. -/
theorem C133_unpaired (fragment : JsText) (es : List Event) (x : JsText)
    (hx : ∀ u ∈ (after fragment (es ++ [.typed x])).input, u < 0x10000)
    (h : ∀ t : Str, (after fragment (es ++ [.typed x])).input ≠ units t) :
    (after fragment (es ++ [.typed x])).fragment = (after fragment es).fragment ∧
    (after fragment (es ++ [.typed x])).table = none := by
  rw [after_typed, explain_input] at hx h
  rw [after_typed]
  have hn : encodeURIComponent (normalised x) = none := by
    cases he : encodeURIComponent (normalised x) with
    | none => rfl
    | some e =>
      obtain ⟨t, ht⟩ := units_of_encode hx he
      exact absurd ht (h t)
  unfold ExplainPage.explain clearTable
  simp only [hn, and_self]

/-- An unpaired surrogate alone. -/
example (fragment : JsText) (es : List Event) :
    (∀ u ∈ (after fragment (es ++ [.typed [0xD83D]])).input, u < 0x10000) ∧
    ∀ t : Str, (after fragment (es ++ [.typed [0xD83D]])).input ≠ units t := by
  have e : (after fragment (es ++ [.typed [0xD83D]])).input = [0xD83D] := by
    rw [after_typed, explain_input]
    rfl
  rw [e]
  refine ⟨by simp, fun t ht => ?_⟩
  have h := encode_units t
  rw [← ht] at h
  exact absurd h (by simp [encodeURIComponent, unescaped, isLeading])

/-- C133. A link to the page shows the text and the explanation which were shown when the link was copied, and the
address stays as it is, for every text but the empty one, if the page is loaded before the program is started.
What is missing: the empty text and the other order, see `C133_violated` and `C133_order_violated`. -/
theorem C133_link_partial (fragment : JsText) (es : List Event) (x : JsText) (t : Str)
    (h : (after fragment (es ++ [.typed x])).input = units t) (ht : t ≠ []) (hs : Event.started ∈ es) :
    after (after fragment (es ++ [.typed x])).fragment [.loaded, .started] = after fragment (es ++ [.typed x]) := by
  have hcr : 13 ∉ units t := by
    rw [← h]
    exact input_cr _ _ (by simp)
  obtain ⟨hf, htab⟩ := C133_address fragment es x t h
  have hr := after_ready fragment (es ++ [.typed x])
  rw [if_pos hs] at htab
  have hl : after (after fragment (es ++ [.typed x])).fragment [.loaded, .started] =
      { ready := true, input := units t, fragment := (address t).map Char.toNat,
        table := explanation (t.takeWhile (· ≠ Char.ofNat 0)) } := by
    rw [after_opened, hf, getInput_address _ ht hcr rfl, explain_units (t := t) _ rfl]
    simp only [if_true]
  rw [hl]
  generalize after fragment (es ++ [.typed x]) = s at *
  obtain ⟨r, i, f, tb⟩ := s
  simp only at h hf htab hr
  subst h hf htab
  simp [hr, hs]

/-- C133. Different texts have different addresses. -/
theorem C133_distinct (t t' : Str) (h : address t = address t') : t = t' := by
  have e : units t = units t' := by
    have h1 := decode_address t
    rw [h, decode_address t'] at h1
    exact (Option.some.inj h1).symm
  have hw : ∀ a b : Str, units a = units b → a = b := by
    intro a
    induction a with
    | nil =>
      intro b hb
      cases b with
      | nil => rfl
      | cons c b =>
        unfold units at hb
        rw [List.flatMap_cons] at hb
        split at hb <;> simp at hb
    | cons c a ih =>
      intro b hb
      cases b with
      | nil =>
        unfold units at hb
        rw [List.flatMap_cons] at hb
        split at hb <;> simp at hb
      | cons d b =>
        have hc := scalar_char c
        have hd := scalar_char d
        unfold Scalar at hc hd
        have key : c.toNat = d.toNat ∧ units a = units b := by
          unfold units at hb ⊢
          rw [List.flatMap_cons, List.flatMap_cons] at hb
          split at hb <;> split at hb <;>
            simp only [List.cons_append, List.nil_append, List.cons.injEq] at hb
          · exact hb
          · omega
          · omega
          · exact ⟨by omega, hb.2.2⟩
        rw [Char.ext (UInt32.toNat_inj.mp key.1), ih b key.2]
  exact hw t t' e

/-- C133. The address contains only letters, digits and `-_.!~*'()%`. -/
theorem C133_plain (t : Str) : ∀ c ∈ address t, AddressChar c ∨ c = '%' := by
  intro c hc
  obtain ⟨d, _, hc⟩ := List.mem_flatMap.mp hc
  split at hc
  · rename_i h
    simp only [List.mem_singleton] at hc
    exact Or.inl (hc ▸ h)
  · obtain ⟨b, _, hc⟩ := List.mem_flatMap.mp hc
    have h : ∀ n < 256, ∀ c ∈ (fun digits : Str => ['%', digits.getD (n / 16) '?', digits.getD (n % 16) '?'])
        ['0', '1', '2', '3', '4', '5', '6', '7', '8', '9', 'A', 'B', 'C', 'D', 'E', 'F'],
        AddressChar c ∨ c = '%' := by decide +kernel
    exact h b.toNat b.toNat_lt c hc

/-- C133 is violated by the empty text: a link to the page copied after the input was cleared shows the sample
report, whatever happened before. -/
theorem C133_violated (fragment : JsText) (es : List Event) :
    (after fragment (es ++ [.typed []])).input = units [] ∧
    (after (after fragment (es ++ [.typed []])).fragment [.loaded, .started]).input = units sampleReportStr := by
  have h : (after fragment (es ++ [.typed []])).input = units [] := by
    rw [after_typed, explain_input]
    rfl
  refine ⟨h, ?_⟩
  rw [(C133_address fragment es [] [] h).1, after_opened, explain_input]
  decide +kernel

/-- C133 is violated if the program is started before the page is loaded: the text in the link is lost, for every
link, the sample report is shown, and the table is the explanation of the empty text. -/
theorem C133_order_violated (fragment : JsText) :
    (after fragment [.started, .loaded]).input = units sampleReportStr ∧
    (after fragment [.started, .loaded]).fragment = (address sampleReportStr).map Char.toNat ∧
    (after fragment [.started, .loaded]).table = explanation [] := by
  have h : after fragment [.started, .loaded] =
      getInputFromHash { ready := true, input := [], fragment := [], table := explanation [] } := by
    rw [after_started, explain_units (t := []) _ rfl]
    simp only [if_true, List.takeWhile_nil, address, List.flatMap_nil, List.map_nil]
  have hn : normalised (sampleReportStr.map Char.toNat) = units sampleReportStr := by decide +kernel
  have hu : sampleReportStr.map Char.toNat = units sampleReportStr := by decide +kernel
  rw [h]
  unfold getInputFromHash
  simp only [ne_eq, not_true_eq_false, if_false, hn]
  rw [hu, encode_units]
  unfold setHash
  simp only [fragmentEncode_safe (address_safe _), and_self]

/-- C133. A page opened without a text in the address shows the sample report and its explanation, and puts it
into the address. -/
theorem C133_sample :
    after [] [.loaded, .started] =
      { ready := true, input := units sampleReportStr, fragment := (address sampleReportStr).map Char.toNat,
        table := explanation sampleReportStr } := by
  have hn : normalised (sampleReportStr.map Char.toNat) = units sampleReportStr := by decide +kernel
  have hu : sampleReportStr.map Char.toNat = units sampleReportStr := by decide +kernel
  have hz : sampleReportStr.takeWhile (· ≠ Char.ofNat 0) = sampleReportStr := by decide +kernel
  have h : getInputFromHash { fragment := [] } =
      { input := units sampleReportStr, fragment := (address sampleReportStr).map Char.toNat } := by
    unfold getInputFromHash
    simp only [ne_eq, not_true_eq_false, if_false, hn]
    rw [hu, encode_units]
    unfold setHash
    simp only [fragmentEncode_safe (address_safe _)]
  rw [after_opened, h, explain_units (t := sampleReportStr) _ rfl, hz]
  simp only [if_true]

/-- C133. A link whose text cannot be decoded shows the empty text, and is wiped from the address. -/
theorem C133_broken (fragment : JsText) (h : decodeURIComponent fragment = none) :
    (after fragment [.loaded, .started]).input = [] ∧ (after fragment [.loaded, .started]).fragment = [] := by
  have hne : fragment ≠ [] := by
    rintro rfl
    exact absurd h (by decide)
  have hg : getInputFromHash { fragment := fragment } = { fragment := fragment } := by
    unfold getInputFromHash
    simp only [ne_eq, hne, not_false_eq_true, if_true, h]
  have e : after fragment [.loaded, .started] =
      ExplainPage.explain { ready := true, input := [], fragment := fragment, table := none } := by
    rw [after_opened, hg]
  rw [e, explain_units (t := []) _ rfl]
  exact ⟨rfl, rfl⟩

/-- `#100%`. -/
example : decodeURIComponent (c!"100%".map Char.toNat) = none := by decide +kernel

/-- A report with a line break, a letter which is not ASCII and an emoji: the address. -/
example : address ['E', 'G', '/', ' ', 'é', '\n', '😀'] = c!"EG%2F%20%C3%A9%0A%F0%9F%98%80" := by decide +kernel

end model

end Metaf.Props

namespace Metaf.Props

open Metaf Metaf.Spec Metaf.ExplainPage

attribute [local instance] ieee

set_option maxRecDepth 4000 in
/-- The table which is shown when the program is started first is not the explanation of the sample report. -/
example : explanation sampleReportStr ≠ explanation [] := by decide +kernel

set_option maxRecDepth 4000 in
/-- The sample report is a forecast without errors. -/
example : (Parser.parse sampleReportStr).map (fun r => (r.reportMetadata.type, r.reportMetadata.error, r.groups.length)) =
    .ok (.TAF, .NONE, 27) := by kernel_rfl

/-- The hypotheses of `C133_link_partial` are met, and there is a table. -/
example : (after [] ([.loaded, .started] ++ [.typed (units c!"METAR UKLL 101010Z 24005MPS 9999=")])).input =
      units c!"METAR UKLL 101010Z 24005MPS 9999=" ∧
    (after [] ([.loaded, .started] ++ [.typed (units c!"METAR UKLL 101010Z 24005MPS 9999=")])).table ≠ none := by
  rw [after_typed, explain_input]
  refine ⟨by decide +kernel, ?_⟩
  rw [← after_typed, (C133_address [] [.loaded, .started] _ c!"METAR UKLL 101010Z 24005MPS 9999=" ?_).2]
  · decide +kernel
  · rw [after_typed, explain_input]
    decide +kernel

end Metaf.Props
