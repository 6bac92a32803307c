import Verif.Model.GroupsA
import Verif.Spec.Trend
import Verif.Proofs.RegexText
import Verif.Props.Values

/-!
C45: times and probabilities of trends.
-/

set_option linter.unusedSectionVars false

namespace Metaf.Props

open Metaf.Spec TrendGroup

variable [FloatSem]

/-! ### The regular expressions -/

theorem span_match (s : Str) (m : Caps) :
    regexMatch timeSpanRgx s = some m ↔ ∃ f : Nat × Nat × Nat × Nat,
      (f.1 < 100 ∧ f.2.1 < 100 ∧ f.2.2.1 < 100 ∧ f.2.2.2 < 100) ∧
      s = decimal 2 f.1 ++ decimal 2 f.2.1 ++ c!"/" ++ decimal 2 f.2.2.1 ++ decimal 2 f.2.2.2 ∧
      m = [(2, decimal 2 f.2.2.1 ++ decimal 2 f.2.2.2), (1, decimal 2 f.1 ++ decimal 2 f.2.1)] := by
  refine regexMatch_form ?_ ?_ s m
  · intro s c
    simp only [timeSpanRgx, ↓Rx.match_two_pairs, Rx.match_seq, Rx.match_cap, Rx.match_chr]
    constructor
    · rintro ⟨_, _, _, _, ⟨_, ⟨rfl, d, h, hd, hh, rfl⟩, rfl⟩, ⟨_, _, _, _, ⟨rfl, rfl⟩,
        ⟨_, ⟨rfl, d', h', hd', hh', rfl⟩, rfl⟩, rfl, rfl⟩, rfl, rfl⟩
      exact ⟨(d, h, d', h'), ⟨hd, hh, hd', hh'⟩, by simp, rfl⟩
    · rintro ⟨⟨d, h, d', h'⟩, ⟨hd, hh, hd', hh'⟩, rfl, rfl⟩
      exact ⟨decimal 2 d ++ decimal 2 h, c!"/" ++ (decimal 2 d' ++ decimal 2 h'), _, _,
        ⟨[], ⟨rfl, d, h, hd, hh, rfl⟩, rfl⟩, ⟨_, _, [], _, ⟨rfl, rfl⟩,
        ⟨[], ⟨rfl, d', h', hd', hh', rfl⟩, rfl⟩, rfl, rfl⟩, by simp, rfl⟩
  · rintro ⟨a, b, c, d⟩ ⟨a', b', c', d'⟩ - - h
    simp only at h
    simp only [List.append_assoc] at h
    obtain ⟨h1, h⟩ := List.append_inj h rfl
    obtain ⟨h2, h⟩ := List.append_inj h rfl
    obtain ⟨-, h⟩ := List.append_inj h rfl
    obtain ⟨h3, h4⟩ := List.append_inj h rfl
    simp only [h1, h2, h3, h4]

theorem ddhh_eq {d h : Nat} (hd : d < 100) (hh : h < 100) :
    MetafTime.fromStringDDHH (decimal 2 d ++ decimal 2 h) = some ⟨some d, h, 0⟩ :=
  (C25_ddhh _ _).mpr ⟨d, h, hd, hh, rfl, rfl⟩

theorem hhmm_eq {h m : Nat} (hh : h < 100) (hm : m < 100) :
    MetafTime.fromStringDDHHMM (decimal 2 h ++ decimal 2 m) = some ⟨none, h, m⟩ :=
  (C25_ddhhmm _ _).mpr ⟨hh, hm, by simp, rfl⟩

theorem ddhhmm_eq {d h m : Nat} (hd : d < 100) (hh : h < 100) (hm : m < 100) :
    MetafTime.fromStringDDHHMM (decimal 2 d ++ decimal 2 h ++ decimal 2 m) = some ⟨some d, h, m⟩ :=
  (C25_ddhhmm _ _).mpr ⟨hh, hm, by rintro _ ⟨⟩; exact hd, rfl⟩

/-- Group for a single word. -/
def wordGroup (w : TrendWord) : TrendGroup where
  t := w.type
  prob := w.probability
  isTafTimeSpanGroup := w.isSpan
  tFrom := w.since
  tTill := w.till
  tAt := w.moment

theorem fromTimeSpan_iff (s : Str) (g : TrendGroup) :
    fromTimeSpan s = some g ↔ ∃ a b c d, (TrendWord.span a b c d).Ok ∧
      s = (TrendWord.span a b c d).text ∧ g = wordGroup (.span a b c d) := by
  have key : ∀ a b c d, (TrendWord.span a b c d).Ok →
      fromTimeSpan (TrendWord.span a b c d).text = some (wordGroup (.span a b c d)) := by
    rintro a b c d ⟨ha, hb, hc, hd⟩
    unfold fromTimeSpan
    rw [(span_match (TrendWord.span a b c d).text _).mpr ⟨(a, b, c, d), ⟨ha, hb, hc, hd⟩, rfl, rfl⟩]
    show (match MetafTime.fromStringDDHH (decimal 2 a ++ decimal 2 b),
      MetafTime.fromStringDDHH (decimal 2 c ++ decimal 2 d) with
      | some f, some t => _ | _, _ => _) = _
    rw [ddhh_eq ha hb, ddhh_eq hc hd]
    rfl
  constructor
  · intro h
    cases hm : regexMatch timeSpanRgx s with
    | none => rw [fromTimeSpan, hm] at h; cases h
    | some m =>
      obtain ⟨⟨a, b, c, d⟩, hok, rfl, -⟩ := (span_match s m).mp hm
      refine ⟨a, b, c, d, hok, rfl, ?_⟩
      have := key a b c d hok
      exact Option.some.inj (h.symm.trans this)
  · rintro ⟨a, b, c, d, hok, rfl, rfl⟩
    exact key a b c d hok

theorem fromTimeSpanHHMM_iff (s : Str) (g : TrendGroup) :
    fromTimeSpanHHMM s = some g ↔ ∃ a b c d, (TrendWord.spanMinutes a b c d).Ok ∧
      s = (TrendWord.spanMinutes a b c d).text ∧ g = wordGroup (.spanMinutes a b c d) := by
  have key : ∀ a b c d, (TrendWord.spanMinutes a b c d).Ok →
      fromTimeSpanHHMM (TrendWord.spanMinutes a b c d).text = some (wordGroup (.spanMinutes a b c d)) := by
    rintro a b c d ⟨ha, hb, hc, hd⟩
    unfold fromTimeSpanHHMM
    rw [(span_match (TrendWord.spanMinutes a b c d).text _).mpr
      ⟨(a, b, c, d), ⟨ha, hb, hc, hd⟩, rfl, rfl⟩]
    show (match MetafTime.fromStringDDHHMM (decimal 2 a ++ decimal 2 b),
      MetafTime.fromStringDDHHMM (decimal 2 c ++ decimal 2 d) with
      | some f, some t => _ | _, _ => _) = _
    rw [hhmm_eq ha hb, hhmm_eq hc hd]
    rfl
  constructor
  · intro h
    cases hm : regexMatch timeSpanRgx s with
    | none => rw [fromTimeSpanHHMM, hm] at h; cases h
    | some m =>
      obtain ⟨⟨a, b, c, d⟩, hok, rfl, -⟩ := (span_match s m).mp hm
      refine ⟨a, b, c, d, hok, rfl, ?_⟩
      have := key a b c d hok
      exact Option.some.inj (h.symm.trans this)
  · rintro ⟨a, b, c, d, hok, rfl, rfl⟩
    exact key a b c d hok

theorem fm_match {s : Str} : (∃ c, fmRgx.Match s c) ↔
    ∃ d h m, d < 100 ∧ h < 100 ∧ m < 100 ∧ s = c!"FM" ++ decimal 2 d ++ decimal 2 h ++ decimal 2 m := by
  simp only [fmRgx, ↓Rx.match_lit, Rx.match_seq, Rx.match_d]
  constructor
  · rintro ⟨_, _, _, _, _, ⟨rfl, rfl⟩, ⟨_, _, _, _, ⟨a, ha, rfl, rfl⟩, ⟨_, _, _, _, ⟨b, hb, rfl, rfl⟩,
      ⟨_, _, _, _, ⟨c, hc, rfl, rfl⟩, ⟨_, _, _, _, ⟨d, hd, rfl, rfl⟩, ⟨_, _, _, _, ⟨e, he, rfl, rfl⟩,
      ⟨f, hf, rfl, rfl⟩, rfl, rfl⟩, rfl, rfl⟩, rfl, rfl⟩, rfl, rfl⟩, rfl, rfl⟩, rfl, rfl⟩
    obtain ⟨x, hx, h1⟩ := two_digits ha hb
    obtain ⟨y, hy, h2⟩ := two_digits hc hd
    obtain ⟨z, hz, h3⟩ := two_digits he hf
    exact ⟨x, y, z, hx, hy, hz, by rw [← h1, ← h2, ← h3]; rfl⟩
  · rintro ⟨x, y, z, hx, hy, hz, rfl⟩
    obtain ⟨a, b, ha, hb, h1⟩ := decimal_two_digits x
    obtain ⟨c, d, hc, hd, h2⟩ := decimal_two_digits y
    obtain ⟨e, f, he, hf, h3⟩ := decimal_two_digits z
    rw [h1, h2, h3]
    exact ⟨[], c!"FM", [a, b, c, d, e, f], [], [], ⟨rfl, rfl⟩,
      ⟨[a], [b, c, d, e, f], [], [], ⟨a, ha, rfl, rfl⟩,
      ⟨[b], [c, d, e, f], [], [], ⟨b, hb, rfl, rfl⟩,
      ⟨[c], [d, e, f], [], [], ⟨c, hc, rfl, rfl⟩, ⟨[d], [e, f], [], [], ⟨d, hd, rfl, rfl⟩,
      ⟨[e], [f], [], [], ⟨e, he, rfl, rfl⟩, ⟨f, hf, rfl, rfl⟩,
      rfl, rfl⟩, rfl, rfl⟩, rfl, rfl⟩, rfl, rfl⟩, rfl, rfl⟩, rfl, rfl⟩

theorem fromFm_iff (s : Str) (g : TrendGroup) :
    fromFm s = some g ↔ ∃ a b c, (TrendWord.fromDay a b c).Ok ∧
      s = (TrendWord.fromDay a b c).text ∧ g = wordGroup (.fromDay a b c) := by
  have key : ∀ a b c, (TrendWord.fromDay a b c).Ok →
      fromFm (TrendWord.fromDay a b c).text = some (wordGroup (.fromDay a b c)) := by
    rintro a b c ⟨ha, hb, hc⟩
    unfold fromFm
    rw [if_neg]
    · have : substr (TrendWord.fromDay a b c).text 2 6 = decimal 2 a ++ decimal 2 b ++ decimal 2 c := rfl
      rw [this, ddhhmm_eq ha hb hc]
      rfl
    · have := regexMatch_isSome_iff.mpr (fm_match.mpr ⟨a, b, c, ha, hb, hc, rfl⟩)
      simpa [TrendWord.text] using Option.isSome_iff_ne_none.mp this
  constructor
  · intro h
    cases hm : regexMatch fmRgx s with
    | none => rw [fromFm, if_pos (by rw [hm]; rfl)] at h; cases h
    | some m =>
      obtain ⟨a, b, c, ha, hb, hc, rfl⟩ := fm_match.mp ⟨m, regexMatch_sound hm⟩
      have := key a b c ⟨ha, hb, hc⟩
      exact ⟨a, b, c, ⟨ha, hb, hc⟩, rfl, Option.some.inj (h.symm.trans this)⟩
  · rintro ⟨a, b, c, hok, rfl, rfl⟩
    exact key a b c hok

theorem trendTime_match (s : Str) (m : Caps) :
    regexMatch trendTimeRgx s = some m ↔ ∃ f : (Char × Char) × Nat × Nat,
      (f.1.1 ∈ c!"FTA" ∧ f.1.2 ∈ c!"MLT" ∧ f.2.1 < 100 ∧ f.2.2 < 100) ∧
      s = [f.1.1, f.1.2] ++ decimal 2 f.2.1 ++ decimal 2 f.2.2 ∧
      m = [(2, decimal 2 f.2.1 ++ decimal 2 f.2.2), (1, [f.1.1, f.1.2])] := by
  refine regexMatch_form ?_ ?_ s m
  · intro s c
    simp only [trendTimeRgx, ↓Rx.match_two_pairs, Rx.match_seq, Rx.match_cap, Rx.match_oneOf]
    constructor
    · rintro ⟨_, _, _, _, ⟨_, ⟨_, _, _, _, ⟨x, hx, rfl, rfl⟩, ⟨y, hy, rfl, rfl⟩, rfl, rfl⟩, rfl⟩,
        ⟨_, ⟨rfl, d, h, hd, hh, rfl⟩, rfl⟩, rfl, rfl⟩
      exact ⟨((x, y), d, h), ⟨hx, hy, hd, hh⟩, by simp, rfl⟩
    · rintro ⟨⟨⟨x, y⟩, d, h⟩, ⟨hx, hy, hd, hh⟩, rfl, rfl⟩
      exact ⟨[x, y], decimal 2 d ++ decimal 2 h, _, _,
        ⟨[], ⟨[x], [y], [], [], ⟨x, hx, rfl, rfl⟩, ⟨y, hy, rfl, rfl⟩, rfl, rfl⟩, rfl⟩,
        ⟨[], ⟨rfl, d, h, hd, hh, rfl⟩, rfl⟩, by simp, rfl⟩
  · rintro ⟨⟨x, y⟩, a, b⟩ ⟨⟨x', y'⟩, a', b'⟩ - - h
    simp only [List.append_assoc] at h
    obtain ⟨h1, h⟩ := List.append_inj h rfl
    obtain ⟨h2, h3⟩ := List.append_inj h rfl
    simp only [h1, h2, h3]

theorem fromTrendTime_iff (s : Str) (g : TrendGroup) :
    fromTrendTime s = some g ↔ ∃ w : TrendWord, w.Ok ∧
      (∃ a b, w = .from a b ∨ w = .until a b ∨ w = .at a b) ∧ s = w.text ∧ g = wordGroup w := by
  constructor
  · intro h
    unfold fromTrendTime at h
    cases hm : regexMatch trendTimeRgx s with
    | none => rw [hm] at h; cases h
    | some m =>
      rw [hm] at h
      obtain ⟨⟨⟨x, y⟩, a, b⟩, ⟨hx, hy, ha, hb⟩, rfl, rfl⟩ := (trendTime_match s m).mp hm
      have e1 : Caps.str [(2, decimal 2 a ++ decimal 2 b), (1, [x, y])] 1 = [x, y] := rfl
      have e2 : Caps.str [(2, decimal 2 a ++ decimal 2 b), (1, [x, y])] 2 =
        decimal 2 a ++ decimal 2 b := rfl
      simp only [e1, e2, hhmm_eq ha hb] at h
      by_cases h1 : [x, y] = c!"FM"
      · obtain ⟨rfl, rfl⟩ : x = 'F' ∧ y = 'M' := by simpa using h1
        rw [if_pos rfl] at h
        exact ⟨.from a b, ⟨ha, hb⟩, ⟨a, b, Or.inl rfl⟩, rfl, (Option.some.inj h).symm⟩
      rw [if_neg h1] at h
      by_cases h2 : [x, y] = c!"TL"
      · obtain ⟨rfl, rfl⟩ : x = 'T' ∧ y = 'L' := by simpa using h2
        rw [if_pos rfl] at h
        exact ⟨.until a b, ⟨ha, hb⟩, ⟨a, b, Or.inr (Or.inl rfl)⟩, rfl, (Option.some.inj h).symm⟩
      rw [if_neg h2] at h
      by_cases h3 : [x, y] = c!"AT"
      · obtain ⟨rfl, rfl⟩ : x = 'A' ∧ y = 'T' := by simpa using h3
        rw [if_pos rfl] at h
        exact ⟨.at a b, ⟨ha, hb⟩, ⟨a, b, Or.inr (Or.inr rfl)⟩, rfl, (Option.some.inj h).symm⟩
      · rw [if_neg h3] at h; cases h
  · rintro ⟨w, hok, ⟨a, b, rfl | rfl | rfl⟩, rfl, rfl⟩
    · unfold fromTrendTime
      rw [(trendTime_match (TrendWord.from a b).text _).mpr
        ⟨(('F', 'M'), a, b), ⟨by simp, by simp, hok.1, hok.2⟩, rfl, rfl⟩]
      show (match MetafTime.fromStringDDHHMM (decimal 2 a ++ decimal 2 b) with
        | none => _ | some time => _) = _
      rw [hhmm_eq hok.1 hok.2]
      rfl
    · unfold fromTrendTime
      rw [(trendTime_match (TrendWord.until a b).text _).mpr
        ⟨(('T', 'L'), a, b), ⟨by simp, by simp, hok.1, hok.2⟩, rfl, rfl⟩]
      show (match MetafTime.fromStringDDHHMM (decimal 2 a ++ decimal 2 b) with
        | none => _ | some time => _) = _
      rw [hhmm_eq hok.1 hok.2]
      rfl
    · unfold fromTrendTime
      rw [(trendTime_match (TrendWord.at a b).text _).mpr
        ⟨(('A', 'T'), a, b), ⟨by simp, by simp, hok.1, hok.2⟩, rfl, rfl⟩]
      show (match MetafTime.fromStringDDHHMM (decimal 2 a ++ decimal 2 b) with
        | none => _ | some time => _) = _
      rw [hhmm_eq hok.1 hok.2]
      rfl

/-! ### Single words -/

theorem digit_text_ne (a b c d : Nat) (k : Char) (ks : Str) (hk : isDigit k = false) :
    (TrendWord.span a b c d).text ≠ k :: ks := by
  intro h
  have : Nat.digitChar (a / 10 % 10) = k := by
    simp only [TrendWord.text, decimal_two, List.cons_append, List.cons.injEq] at h
    exact h.1
  exact digitChar_ne hk (Nat.mod_lt _ (by decide)) this

theorem parse_taf {s : Str} (h1 : s ≠ c!"BECMG") (h2 : s ≠ c!"TEMPO") (h3 : s ≠ c!"INTER")
    (h4 : s ≠ c!"PROB30") (h5 : s ≠ c!"PROB40") :
    TrendGroup.parse s .TAF = match fromTimeSpan s with
      | some g => some g
      | none => match fromFm s with | some g => some g | none => fromTimeSpan s := by
  unfold TrendGroup.parse
  rw [if_neg (fun h => h1 h.2), if_neg (fun h => h2 h.2), if_neg (fun h => h3 h.2)]
  simp only
  rw [if_neg h4, if_neg h5]
  rfl

theorem parse_metar {s : Str} (h1 : s ≠ c!"BECMG") (h2 : s ≠ c!"TEMPO") (h3 : s ≠ c!"INTER")
    (h4 : s ≠ c!"NOSIG") :
    TrendGroup.parse s .METAR = match fromTrendTime s with
      | some g => some g
      | none => fromTimeSpanHHMM s := by
  unfold TrendGroup.parse
  rw [if_neg (fun h => h1 h.2), if_neg (fun h => h2 h.2), if_neg (fun h => h3 h.2)]
  simp only
  rw [if_neg h4]
  rfl

theorem parse_word {w : TrendWord} {p : ReportPart} (hok : w.Ok) (ha : w.AllowedIn p) :
    TrendGroup.parse w.text p = some (wordGroup w) := by
  have hspan : ∀ a b c d (k : Char) (ks : Str), isDigit k = false →
      (TrendWord.span a b c d).text ≠ k :: ks := digit_text_ne
  cases w with
  | nosig => obtain rfl := ha; rfl
  | becmg => rcases ha with rfl | rfl <;> rfl
  | tempo => rcases ha with rfl | rfl <;> rfl
  | inter => rcases ha with rfl | rfl <;> rfl
  | prob30 => obtain rfl := ha; rfl
  | prob40 => obtain rfl := ha; rfl
  | span a b c d =>
    have h := (fromTimeSpan_iff (TrendWord.span a b c d).text _).mpr ⟨a, b, c, d, hok, rfl, rfl⟩
    rcases ha with rfl | rfl
    · rw [parse_taf (hspan a b c d _ _ rfl) (hspan a b c d _ _ rfl) (hspan a b c d _ _ rfl)
        (hspan a b c d _ _ rfl) (hspan a b c d _ _ rfl), h]
    · unfold TrendGroup.parse
      rw [if_neg (by simp), if_neg (by simp), if_neg (by simp)]
      exact h
  | spanMinutes a b c d =>
    have h := (fromTimeSpanHHMM_iff (TrendWord.spanMinutes a b c d).text _).mpr
      ⟨a, b, c, d, hok, rfl, rfl⟩
    obtain rfl := ha
    have e : (TrendWord.spanMinutes a b c d).text = (TrendWord.span a b c d).text := rfl
    rw [parse_metar (e ▸ hspan a b c d _ _ rfl) (e ▸ hspan a b c d _ _ rfl) (e ▸ hspan a b c d _ _ rfl)
        (e ▸ hspan a b c d _ _ rfl)]
    have hn : fromTrendTime (TrendWord.spanMinutes a b c d).text = none := by
      cases hf : fromTrendTime (TrendWord.spanMinutes a b c d).text with
      | none => rfl
      | some g =>
        obtain ⟨w, -, ⟨x, y, rfl | rfl | rfl⟩, ht, -⟩ := (fromTrendTime_iff _ _).mp hf <;>
          exact absurd ht (hspan a b c d _ _ rfl)
    rw [hn, h]
  | fromDay a b c =>
    have h := (fromFm_iff (TrendWord.fromDay a b c).text _).mpr ⟨a, b, c, hok, rfl, rfl⟩
    obtain rfl := ha
    rw [parse_taf (by simp [TrendWord.text]) (by simp [TrendWord.text]) (by simp [TrendWord.text])
      (by simp [TrendWord.text]) (by simp [TrendWord.text])]
    have hn : fromTimeSpan (TrendWord.fromDay a b c).text = none := by
      cases hf : fromTimeSpan (TrendWord.fromDay a b c).text with
      | none => rfl
      | some g =>
        obtain ⟨x, y, z, t, -, ht, -⟩ := (fromTimeSpan_iff _ _).mp hf
        exact absurd ht.symm (hspan x y z t _ _ rfl)
    rw [hn, h]
  | «from» a b =>
    have h := (fromTrendTime_iff (TrendWord.from a b).text _).mpr
      ⟨_, hok, ⟨a, b, Or.inl rfl⟩, rfl, rfl⟩
    obtain rfl := ha
    rw [parse_metar (by simp [TrendWord.text]) (by simp [TrendWord.text]) (by simp [TrendWord.text])
      (by simp [TrendWord.text]), h]
  | «until» a b =>
    have h := (fromTrendTime_iff (TrendWord.until a b).text _).mpr
      ⟨_, hok, ⟨a, b, Or.inr (Or.inl rfl)⟩, rfl, rfl⟩
    obtain rfl := ha
    rw [parse_metar (by simp [TrendWord.text]) (by simp [TrendWord.text]) (by simp [TrendWord.text])
      (by simp [TrendWord.text]), h]
  | «at» a b =>
    have h := (fromTrendTime_iff (TrendWord.at a b).text _).mpr
      ⟨_, hok, ⟨a, b, Or.inr (Or.inr rfl)⟩, rfl, rfl⟩
    obtain rfl := ha
    rw [parse_metar (by simp [TrendWord.text]) (by simp [TrendWord.text]) (by simp [TrendWord.text])
      (by simp [TrendWord.text]), h]

/-- C45: the texts recognised in each part of a report are exactly the words of trends which may be
written there, and the group holds the type, the probability and the times written. -/
theorem C45_parse (s : Str) (p : ReportPart) (g : TrendGroup) :
    TrendGroup.parse s p = some g ↔
      ∃ w : TrendWord, w.Ok ∧ w.AllowedIn p ∧ s = w.text ∧
        g = { t := w.type, prob := w.probability, isTafTimeSpanGroup := w.isSpan, tFrom := w.since,
              tTill := w.till, tAt := w.moment } := by
  constructor
  swap
  · rintro ⟨w, hok, ha, rfl, rfl⟩
    exact parse_word hok ha
  intro h
  have kw : ∀ w : TrendWord, w.Ok → w.AllowedIn p → s = w.text → ∃ w : TrendWord, w.Ok ∧ w.AllowedIn p ∧
      s = w.text ∧ g = wordGroup w := by
    intro w hok ha hs
    refine ⟨w, hok, ha, hs, ?_⟩
    rw [hs, parse_word hok ha] at h
    exact (Option.some.inj h).symm
  have hp : p = .METAR ∨ p = .TAF ∨ p = .HEADER := by
    cases p <;> simp [TrendGroup.parse] at h ⊢
  by_cases h1 : s = c!"BECMG"
  · by_cases hh : p = .METAR ∨ p = .TAF
    · exact kw .becmg trivial hh h1
    · rcases hp with rfl | rfl | rfl
      · simp at hh
      · simp at hh
      · subst h1
        rw [show TrendGroup.parse c!"BECMG" .HEADER = none by decide +kernel] at h
        cases h
  by_cases h2 : s = c!"TEMPO"
  · by_cases hh : p = .METAR ∨ p = .TAF
    · exact kw .tempo trivial hh h2
    · rcases hp with rfl | rfl | rfl
      · simp at hh
      · simp at hh
      · subst h2
        rw [show TrendGroup.parse c!"TEMPO" .HEADER = none by decide +kernel] at h
        cases h
  by_cases h3 : s = c!"INTER"
  · by_cases hh : p = .METAR ∨ p = .TAF
    · exact kw .inter trivial hh h3
    · rcases hp with rfl | rfl | rfl
      · simp at hh
      · simp at hh
      · subst h3
        rw [show TrendGroup.parse c!"INTER" .HEADER = none by decide +kernel] at h
        cases h
  rcases hp with rfl | rfl | rfl
  · by_cases h4 : s = c!"NOSIG"
    · exact kw .nosig trivial rfl h4
    rw [parse_metar h1 h2 h3 h4] at h
    cases ht : fromTrendTime s with
    | some g' =>
      obtain ⟨w, hok, ⟨a, b, hw⟩, hs, -⟩ := (fromTrendTime_iff _ _).mp ht
      refine kw w hok ?_ hs
      rcases hw with rfl | rfl | rfl <;> rfl
    | none =>
      rw [ht] at h
      obtain ⟨a, b, c, d, hok, hs, -⟩ := (fromTimeSpanHHMM_iff _ _).mp h
      exact kw _ hok rfl hs
  · by_cases h4 : s = c!"PROB30"
    · exact kw .prob30 trivial rfl h4
    by_cases h5 : s = c!"PROB40"
    · exact kw .prob40 trivial rfl h5
    rw [parse_taf h1 h2 h3 h4 h5] at h
    cases ht : fromTimeSpan s with
    | some g' =>
      obtain ⟨a, b, c, d, hok, hs, -⟩ := (fromTimeSpan_iff _ _).mp ht
      exact kw _ hok (Or.inl rfl) hs
    | none =>
      rw [ht] at h
      cases hf : fromFm s with
      | some g' =>
        obtain ⟨a, b, c, hok, hs, -⟩ := (fromFm_iff _ _).mp hf
        exact kw _ hok rfl hs
      | none => rw [hf] at h; cases h
  · unfold TrendGroup.parse at h
    rw [if_neg (by simp), if_neg (by simp), if_neg (by simp)] at h
    obtain ⟨a, b, c, d, hok, hs, -⟩ := (fromTimeSpan_iff _ _).mp h
    exact kw _ hok (Or.inr rfl) hs

/-! ### Sequences of words -/

/-- The group `g` was produced from the words `ws`: the first was parsed and each of the others was
appended. -/
inductive Built : List TrendWord → TrendGroup → Prop
  | first {w : TrendWord} {p : ReportPart} {g : TrendGroup} : w.Ok → w.AllowedIn p →
      TrendGroup.parse w.text p = some g → Built [w] g
  | next {ws : List TrendWord} {w : TrendWord} {p : ReportPart} {g g' : TrendGroup} : Built ws g →
      w.Ok → w.AllowedIn p → TrendGroup.append g w.text p = (g', .APPENDED) → Built (ws ++ [w]) g'

/-- The group holds what the words say. -/
structure Says (ws : List TrendWord) (g : TrendGroup) : Prop where
  since : ∀ t, g.tFrom = some t ↔ ∃ w ∈ ws, w.since = some t
  till : ∀ t, g.tTill = some t ↔ ∃ w ∈ ws, w.till = some t
  moment : ∀ t, g.tAt = some t ↔ ∃ w ∈ ws, w.moment = some t
  prob : ∀ q, q ≠ .NONE → (g.prob = q ↔ ∃ w ∈ ws, w.probability = q)
  shape : (∃ w, ws = [w] ∧ g = wordGroup w) ∨ (2 ≤ ws.length ∧
    (((∃ c ∈ ws, c.isChange = true) ∧ ∀ c ∈ ws, c.isChange = true → g.t = c.type) ∨
      (g.t = .TIME_SPAN ∧ ∀ c ∈ ws, c.isChange = false)))

/-- The combination of two groups in `append`. -/
def combined (g next : TrendGroup) : Option TrendGroup :=
  match combineProbAndTrendTypeGroups g next with
  | some g' => some g'
  | none =>
    match combineTrendTypeAndTimeGroup g next with
    | some g' => some g'
    | none =>
      match combineProbAndTimeSpanGroups g next with
      | some g' => some g'
      | none => combineIncompleteGroups g next

theorem append_word {g : TrendGroup} {w : TrendWord} {p : ReportPart} (hok : w.Ok) (ha : w.AllowedIn p) :
    TrendGroup.append g w.text p =
      if g.t = .NOSIG then (g, .NOT_APPENDED)
      else match combined g (wordGroup w) with
        | some g' => (g', .APPENDED)
        | none => (g, .NOT_APPENDED) := by
  unfold TrendGroup.append
  rw [parse_word hok ha]
  split
  · rfl
  · simp only [combined]
    cases combineProbAndTrendTypeGroups g (wordGroup w) <;> simp only
    cases combineTrendTypeAndTimeGroup g (wordGroup w) <;> simp only
    cases combineProbAndTimeSpanGroups g (wordGroup w) <;> simp only
    cases combineIncompleteGroups g (wordGroup w) <;> simp only

theorem says_single (w : TrendWord) : Says [w] (wordGroup w) where
  since t := by simp [wordGroup]
  till t := by simp [wordGroup]
  moment t := by simp [wordGroup]
  prob q _ := by simp [wordGroup]
  shape := Or.inl ⟨w, rfl, rfl⟩

theorem combined_single (v w : TrendWord) (g' : TrendGroup) (hv : v ≠ .nosig) :
    combined (wordGroup v) (wordGroup w) = some g' ↔ TrendWord.Continues [v] w ∧ g' =
      { (wordGroup v).combineTime (wordGroup w) with
        t := if v.isChange then v.type else if w.isChange then w.type else .TIME_SPAN } := by
  cases v <;> cases w <;>
    simp [combined, combineProbAndTrendTypeGroups, combineTrendTypeAndTimeGroup,
      combineProbAndTimeSpanGroups, combineIncompleteGroups, isProbabilityGroup, isTrendTypeGroup,
      isTimeSpanGroup, isTrendTimeGroup, canCombineTime, combineTime, wordGroup, TrendWord.type,
      TrendWord.probability, TrendWord.since, TrendWord.till, TrendWord.moment, TrendWord.isSpan,
      TrendWord.isChange, TrendWord.isProbability, TrendWord.isTime, TrendWord.Continues,
      TrendWord.Compatible] at hv ⊢ <;> exact eq_comm

theorem combined_change (g : TrendGroup) (w : TrendWord) (g' : TrendGroup)
    (h : g.t = .BECMG ∨ g.t = .TEMPO ∨ g.t = .INTER) :
    combined g (wordGroup w) = some g' ↔
      w.isTime = true ∧ canCombineTime g (wordGroup w) = true ∧ g' = g.combineTime (wordGroup w) := by
  have h1 : combineProbAndTrendTypeGroups g (wordGroup w) = none := by
    unfold combineProbAndTrendTypeGroups isProbabilityGroup
    rw [if_pos]
    rcases h with h | h | h <;> simp [h]
  have h3 : combineProbAndTimeSpanGroups g (wordGroup w) = none := by
    unfold combineProbAndTimeSpanGroups isProbabilityGroup
    rw [if_pos]
    rcases h with h | h | h <;> simp [h]
  have h4 : combineIncompleteGroups g (wordGroup w) = none := by
    unfold combineIncompleteGroups
    rw [if_pos]
    rcases h with h | h | h <;> simp [h]
  have h2 : combineTrendTypeAndTimeGroup g (wordGroup w) =
      if w.isTime = true ∧ canCombineTime g (wordGroup w) = true then some (g.combineTime (wordGroup w))
      else none := by
    have ht : ((wordGroup w).isTimeSpanGroup || (wordGroup w).isTrendTimeGroup) = w.isTime := by
      cases w <;> simp [wordGroup, isTimeSpanGroup, isTrendTimeGroup, TrendWord.isTime, TrendWord.type,
        TrendWord.since, TrendWord.till, TrendWord.moment, TrendWord.isSpan, TrendWord.probability]
    unfold combineTrendTypeAndTimeGroup
    rw [if_neg (by rcases h with h | h | h <;> simp [h]), ← ht]
    cases (wordGroup w).isTimeSpanGroup <;> cases (wordGroup w).isTrendTimeGroup <;>
      cases canCombineTime g (wordGroup w) <;> simp
  unfold combined
  rw [h1, h2, h3, h4]
  by_cases hc : w.isTime = true ∧ canCombineTime g (wordGroup w) = true
  · rw [if_pos hc]
    simp [hc.1, hc.2, eq_comm]
  · rw [if_neg hc]
    simp only [reduceCtorEq, false_iff]
    rintro ⟨a, b, -⟩
    exact hc ⟨a, b⟩

theorem combined_span (g : TrendGroup) (w : TrendWord) (h : g.t = .TIME_SPAN) :
    combined g (wordGroup w) = none := by
  simp [combined, combineProbAndTrendTypeGroups, isProbabilityGroup, combineTrendTypeAndTimeGroup,
    combineProbAndTimeSpanGroups, combineIncompleteGroups, h]

theorem none_iff_of {α β : Type} {o : Option α} {ws : List β} {f : β → Option α}
    (h : ∀ t, o = some t ↔ ∃ w ∈ ws, f w = some t) : o = none ↔ ∀ w ∈ ws, f w = none := by
  constructor
  · intro ho w hw
    cases hf : f w with
    | none => rfl
    | some t => rw [(h t).mpr ⟨w, hw, hf⟩] at ho; cases ho
  · intro hw
    cases ho : o with
    | none => rfl
    | some t =>
      obtain ⟨w, hm, hf⟩ := (h t).mp ho
      rw [hw w hm] at hf; cases hf

theorem canCombine_iff {ws : List TrendWord} {g : TrendGroup} (h : Says ws g) (w : TrendWord) :
    canCombineTime g (wordGroup w) = true ↔ ∀ v ∈ ws, v.Compatible w := by
  have a := none_iff_of h.since
  have b := none_iff_of h.till
  have c := none_iff_of h.moment
  have key : canCombineTime g (wordGroup w) = true ↔
      (g.tFrom = none ∨ w.since = none) ∧ (g.tTill = none ∨ w.till = none) ∧
      (g.tAt = none ∨ w.since = none ∧ w.till = none ∧ w.moment = none) ∧
      (w.moment = none ∨ g.tFrom = none ∧ g.tTill = none ∧ g.tAt = none) := by
    unfold canCombineTime wordGroup
    cases g.tFrom <;> cases g.tTill <;> cases g.tAt <;> cases w.since <;> cases w.till <;>
      cases w.moment <;> simp
  rw [key, a, b, c]
  simp only [TrendWord.Compatible]
  constructor
  · rintro ⟨h1, h2, h3, h4⟩ v hv
    exact ⟨h1.imp (· v hv) id, h2.imp (· v hv) id, h3.imp (· v hv) id,
      h4.imp id (fun h => ⟨h.1 v hv, h.2.1 v hv, h.2.2 v hv⟩)⟩
  · intro h
    refine ⟨?_, ?_, ?_, ?_⟩
    · by_cases hw : w.since = none
      · exact Or.inr hw
      · exact Or.inl fun v hv => (h v hv).1.resolve_right hw
    · by_cases hw : w.till = none
      · exact Or.inr hw
      · exact Or.inl fun v hv => (h v hv).2.1.resolve_right hw
    · by_cases hw : w.since = none ∧ w.till = none ∧ w.moment = none
      · exact Or.inr hw
      · exact Or.inl fun v hv => (h v hv).2.2.1.resolve_right hw
    · by_cases hw : w.moment = none
      · exact Or.inl hw
      · exact Or.inr ⟨fun v hv => ((h v hv).2.2.2.resolve_left hw).1,
          fun v hv => ((h v hv).2.2.2.resolve_left hw).2.1,
          fun v hv => ((h v hv).2.2.2.resolve_left hw).2.2⟩

theorem change_type {c : TrendWord} (h : c.isChange = true) :
    c.type = .BECMG ∨ c.type = .TEMPO ∨ c.type = .INTER := by
  cases c <;> simp [TrendWord.isChange, TrendWord.type] at h ⊢

theorem says_combine {ws : List TrendWord} {g : TrendGroup} (h : Says ws g) {w : TrendWord}
    (hcomp : ∀ v ∈ ws, v.Compatible w) (hwp : w.probability = .NONE) (t : TrendType)
    (hl : 1 ≤ ws.length)
    (hs : ((∃ c ∈ ws ++ [w], c.isChange = true) ∧ ∀ c ∈ ws ++ [w], c.isChange = true → t = c.type) ∨
      (t = .TIME_SPAN ∧ ∀ c ∈ ws ++ [w], c.isChange = false)) :
    Says (ws ++ [w]) { g.combineTime (wordGroup w) with t := t } := by
  have add : ∀ {f : TrendWord → Option MetafTime} {o : Option MetafTime}
      (_ : ∀ t, o = some t ↔ ∃ v ∈ ws, f v = some t) (_ : o = none ∨ f w = none) (t : MetafTime),
      (if o.isSome = true then o else f w) = some t ↔ ∃ v ∈ ws ++ [w], f v = some t := by
    intro f o ho hx t
    simp only [List.mem_append, List.mem_singleton, or_and_right, exists_or, exists_eq_left, ← ho]
    rcases hx with hx | hx
    · simp [hx]
    · rw [hx]
      cases o <;> simp
  refine ⟨?_, ?_, ?_, ?_, ?_⟩
  · refine add h.since ?_
    by_cases hw : w.since = none
    · exact Or.inr hw
    · exact Or.inl ((none_iff_of h.since).mpr fun v hv => (hcomp v hv).1.resolve_right hw)
  · refine add h.till ?_
    by_cases hw : w.till = none
    · exact Or.inr hw
    · exact Or.inl ((none_iff_of h.till).mpr fun v hv => (hcomp v hv).2.1.resolve_right hw)
  · refine add h.moment ?_
    by_cases hw : w.moment = none
    · exact Or.inr hw
    · exact Or.inl ((none_iff_of h.moment).mpr fun v hv =>
        (hcomp v hv).2.2.2.resolve_left hw |>.2.2)
  · intro q hq
    have := h.prob q hq
    simp only [combineTime, this, List.mem_append, List.mem_singleton, or_and_right, exists_or,
      exists_eq_left, hwp]
    simp [Ne.symm hq]
  · right
    refine ⟨?_, hs⟩
    simp only [List.length_append, List.length_singleton]
    omega

theorem continues_single {v w : TrendWord} (h : TrendWord.Continues [v] w) :
    v.Compatible w ∧ w.probability = .NONE ∧ ((v.isChange = true ∧ w.isChange = false) ∨
      (v.isChange = false ∧ w.isChange = true) ∨ (v.isChange = false ∧ w.isChange = false)) := by
  rcases h with ⟨p, hp, hpp, hw⟩ | ⟨⟨c, hc, hcc⟩, ht, hcomp⟩ | ⟨f, hf, hft, hu⟩
  · simp only [List.cons.injEq, and_true] at hp
    subst hp
    have hv : v.since = none ∧ v.till = none ∧ v.moment = none ∧ v.isChange = false := by
      cases v <;> first | exact ⟨rfl, rfl, rfl, rfl⟩ | cases hpp
    refine ⟨⟨Or.inl hv.1, Or.inl hv.2.1, Or.inl hv.2.2.1, Or.inr ⟨hv.1, hv.2.1, hv.2.2.1⟩⟩, ?_, ?_⟩
    · rcases hw with rfl | rfl | hw
      · rfl
      · rfl
      · cases w <;> first | rfl | cases hw
    · rw [hv.2.2.2]
      cases w.isChange <;> simp
  · obtain rfl := List.mem_singleton.mp hc
    refine ⟨hcomp c (by simp), ?_, Or.inl ⟨hcc, ?_⟩⟩ <;> cases w <;> first | rfl | cases ht
  · simp only [List.cons.injEq, and_true] at hf
    subst hf
    have hv : v.till = none ∧ v.moment = none ∧ v.isChange = false := by
      cases v <;> first | exact ⟨rfl, rfl, rfl⟩ | cases hft
    have hw : w.since = none ∧ w.moment = none ∧ w.isChange = false ∧ w.probability = .NONE := by
      cases w <;> first | exact ⟨rfl, rfl, rfl, rfl⟩ | cases hu
    exact ⟨⟨Or.inr hw.1, Or.inl hv.1, Or.inl hv.2.1, Or.inl hw.2.1⟩, hw.2.2.2,
      Or.inr (Or.inr ⟨hv.2.2, hw.2.2.1⟩)⟩

theorem combined_iff {ws : List TrendWord} {g : TrendGroup} (h : Says ws g) (hn : g.t ≠ .NOSIG)
    (w : TrendWord) (g' : TrendGroup) :
    combined g (wordGroup w) = some g' → TrendWord.Continues ws w ∧ Says (ws ++ [w]) g' := by
  intro hc
  rcases h.shape with ⟨v, rfl, rfl⟩ | ⟨hl, ⟨⟨c, hcm, hch⟩, hall⟩ | ⟨ht, hall⟩⟩
  · have hv : v ≠ .nosig := by rintro rfl; exact hn rfl
    obtain ⟨hcont, rfl⟩ := (combined_single v w g' hv).mp hc
    obtain ⟨hcomp, hwp, hch⟩ := continues_single hcont
    refine ⟨hcont, says_combine h (by simpa using hcomp) hwp _ (by simp) ?_⟩
    rcases hch with ⟨h1, h2⟩ | ⟨h1, h2⟩ | ⟨h1, h2⟩ <;> simp [h1, h2]
  · have hgt := hall c hcm hch
    have hg : g.t = .BECMG ∨ g.t = .TEMPO ∨ g.t = .INTER := by rw [hgt]; exact change_type hch
    obtain ⟨htime, hcan, rfl⟩ := (combined_change g w g' hg).mp hc
    have hcomp := (canCombine_iff h w).mp hcan
    refine ⟨Or.inr (Or.inl ⟨⟨c, hcm, hch⟩, htime, hcomp⟩), ?_⟩
    have hwc : w.isChange = false := by cases w <;> simp [TrendWord.isTime] at htime <;> rfl
    have hwp : w.probability = .NONE := by cases w <;> simp [TrendWord.isTime] at htime <;> rfl
    refine says_combine h hcomp hwp g.t (by omega) (Or.inl ⟨⟨c, by simp [hcm], hch⟩, ?_⟩)
    intro d hd hdc
    simp only [List.mem_append, List.mem_singleton] at hd
    rcases hd with hd | rfl
    · exact hall d hd hdc
    · rw [hwc] at hdc; cases hdc
  · rw [combined_span g w ht] at hc
    cases hc

theorem combined_of_continues {ws : List TrendWord} {g : TrendGroup} (h : Says ws g) (hn : g.t ≠ .NOSIG)
    {w : TrendWord} (hc : TrendWord.Continues ws w) : ∃ g', combined g (wordGroup w) = some g' := by
  rcases h.shape with ⟨v, rfl, rfl⟩ | ⟨hl, ⟨⟨c, hcm, hch⟩, hall⟩ | ⟨ht, hall⟩⟩
  · have hv : v ≠ .nosig := by rintro rfl; exact hn rfl
    exact ⟨_, (combined_single v w _ hv).mpr ⟨hc, rfl⟩⟩
  · have hg : g.t = .BECMG ∨ g.t = .TEMPO ∨ g.t = .INTER := by
      rw [hall c hcm hch]; exact change_type hch
    rcases hc with ⟨p, rfl, -⟩ | ⟨-, ht, hcomp⟩ | ⟨p, rfl, -⟩
    · simp at hl
    · exact ⟨_, (combined_change g w _ hg).mpr ⟨ht, (canCombine_iff h w).mpr hcomp, rfl⟩⟩
    · simp at hl
  · exfalso
    rcases hc with ⟨p, rfl, -⟩ | ⟨⟨c, hc, hcc⟩, -⟩ | ⟨p, rfl, -⟩
    · simp at hl
    · rw [hall c hc] at hcc; cases hcc
    · simp at hl

theorem says_of_built {ws : List TrendWord} {g : TrendGroup} (h : Built ws g) : Says ws g := by
  induction h with
  | first hok ha hp =>
    rw [parse_word hok ha] at hp
    obtain rfl := Option.some.inj hp
    exact says_single _
  | next _ hok ha happ ih =>
    rw [append_word hok ha] at happ
    split at happ
    · cases happ
    · rename_i hn
      split at happ
      · rename_i g'' hc
        simp only [Prod.mk.injEq, and_true] at happ
        subst happ
        exact (combined_iff ih hn _ _ hc).2
      · cases happ

/-- C45: a group produced from a sequence of words holds every time written in them, and no other:
nothing written is lost or overwritten. The probability is the one written. -/
theorem C45_times {ws : List TrendWord} {g : TrendGroup} (h : Built ws g) :
    (∀ t, g.tFrom = some t ↔ ∃ w ∈ ws, w.since = some t) ∧
    (∀ t, g.tTill = some t ↔ ∃ w ∈ ws, w.till = some t) ∧
    (∀ t, g.tAt = some t ↔ ∃ w ∈ ws, w.moment = some t) ∧
    (∀ q, q ≠ .NONE → (g.prob = q ↔ ∃ w ∈ ws, w.probability = q)) :=
  have s := says_of_built h
  ⟨s.since, s.till, s.moment, s.prob⟩

/-- C45: the type of a group is the change indicator written; without one it is the type of the only
word, or a period. -/
theorem C45_type {ws : List TrendWord} {g : TrendGroup} (h : Built ws g) :
    (∀ c ∈ ws, c.isChange = true → g.t = c.type) ∧ (∀ w, ws = [w] → g.t = w.type) ∧
    ((∀ c ∈ ws, c.isChange = false) → 2 ≤ ws.length → g.t = .TIME_SPAN) := by
  rcases (says_of_built h).shape with ⟨v, rfl, rfl⟩ | ⟨hl, ⟨⟨c, hcm, hch⟩, hall⟩ | ⟨ht, hall⟩⟩
  · refine ⟨?_, ?_, ?_⟩
    · intro c hc _
      obtain rfl := List.mem_singleton.mp hc
      rfl
    · rintro w ⟨⟩
      rfl
    · intro _ h
      simp at h
  · refine ⟨hall, ?_, ?_⟩
    · rintro w rfl
      simp at hl
    · intro h
      rw [h c hcm] at hch
      cases hch
  · refine ⟨?_, ?_, fun _ _ => ht⟩
    · intro c hc hcc
      rw [hall c hc] at hcc
      cases hcc
    · rintro w rfl
      simp at hl

/-- C45: which texts are appended: exactly the words which may continue the words read before. Every
other text leaves the group as it is. -/
theorem C45_append {ws : List TrendWord} {g : TrendGroup} (h : Built ws g) (s : Str) (p : ReportPart) :
    ((∃ w : TrendWord, w.Ok ∧ w.AllowedIn p ∧ s = w.text ∧ w.Continues ws) ∧
        ∃ g', TrendGroup.append g s p = (g', .APPENDED)) ∨
    (¬ (∃ w : TrendWord, w.Ok ∧ w.AllowedIn p ∧ s = w.text ∧ w.Continues ws) ∧
        TrendGroup.append g s p = (g, .NOT_APPENDED)) := by
  have hs := says_of_built h
  by_cases hn : g.t = .NOSIG
  · refine Or.inr ⟨?_, by unfold TrendGroup.append; rw [if_pos hn]⟩
    rintro ⟨w, -, -, -, hc⟩
    have hv : ws = [.nosig] := by
      rcases hs.shape with ⟨v, rfl, rfl⟩ | ⟨-, ⟨⟨c, hcm, hch⟩, hall⟩ | ⟨ht, -⟩⟩
      · cases v <;> first | rfl | cases hn
      · rw [hall c hcm hch] at hn
        rcases change_type hch with h | h | h <;> rw [h] at hn <;> cases hn
      · rw [ht] at hn; cases hn
    subst hv
    rcases hc with ⟨p, hp, hpp, -⟩ | ⟨⟨c, hc, hcc⟩, -⟩ | ⟨f, hf, hft, -⟩
    · simp only [List.cons.injEq, and_true] at hp
      subst hp; cases hpp
    · obtain rfl := List.mem_singleton.mp hc
      cases hcc
    · simp only [List.cons.injEq, and_true] at hf
      subst hf; cases hft
  cases hp : TrendGroup.parse s p with
  | none =>
    refine Or.inr ⟨?_, by unfold TrendGroup.append; rw [if_neg hn, hp]⟩
    rintro ⟨w, hok, ha, rfl, -⟩
    rw [parse_word hok ha] at hp
    cases hp
  | some n =>
    obtain ⟨w, hok, ha, rfl, -⟩ := (C45_parse s p n).mp hp
    have happ := append_word (g := g) hok ha
    rw [if_neg hn] at happ
    cases hc : combined g (wordGroup w) with
    | some g' =>
      rw [hc] at happ
      exact Or.inl ⟨⟨w, hok, ha, rfl, (combined_iff hs hn w g' hc).1⟩, g', happ⟩
    | none =>
      rw [hc] at happ
      refine Or.inr ⟨?_, happ⟩
      rintro ⟨v, hokv, hav, ht, hcont⟩
      obtain ⟨g', hg'⟩ := combined_of_continues hs hn hcont
      have e1 := parse_word hokv hav
      rw [← ht, parse_word hok ha] at e1
      rw [← Option.some.inj e1, hc] at hg'
      cases hg'

end Metaf.Props

namespace Metaf.Props

open Metaf.Spec

/-- `PROB30 TEMPO 0412/0506` and what it says. -/
example : ∃ g, Built [.prob30, .tempo, .span 4 12 5 6] g ∧ g.isValid = true ∧ g.prob = .PROB_30 ∧
    g.t = .TEMPO ∧ g.tFrom = some ⟨some 4, 12, 0⟩ ∧ g.tTill = some ⟨some 5, 6, 0⟩ :=
  ⟨_, .next (ws := [.prob30, .tempo]) (p := .TAF)
    (.next (ws := [.prob30]) (p := .TAF) (.first (p := .TAF) trivial rfl rfl) trivial (Or.inr rfl) rfl)
    (by simp [TrendWord.Ok]) (Or.inl rfl) rfl, rfl, rfl, rfl, rfl, rfl⟩

/-- `BECMG FM1200 TL1300`; another `TL` is not appended. -/
example : ∃ g, Built [.becmg, .from 12 0, .until 13 0] g ∧ g.t = .BECMG ∧
    TrendGroup.append g c!"TL1400" .METAR = (g, .NOT_APPENDED) :=
  ⟨_, .next (ws := [.becmg, .from 12 0]) (p := .METAR)
    (.next (ws := [.becmg]) (p := .METAR) (.first (p := .METAR) trivial (Or.inl rfl) rfl)
      (by simp [TrendWord.Ok]) rfl rfl) (by simp [TrendWord.Ok]) rfl rfl, rfl, rfl⟩

end Metaf.Props
