import Verif.Model.GroupsB
import Verif.Spec.Clouds
import Verif.Proofs.RegexText
import Verif.Proofs.Util
import Verif.Props.Values
import Verif.Props.DistanceText

/-!
C48: cloud layers.
-/

set_option linter.unusedSectionVars false

namespace Metaf.Props

open Metaf.Spec CloudGroup

variable [FloatSem]

theorem amount_iff (s : Str) (a : Amount) : amountFromString s = some a ↔ (s, a) ∈ amountNames := by
  simp only [amountNames, List.mem_cons, Prod.mk.injEq, List.not_mem_nil, or_false]
  constructor
  · intro h
    unfold amountFromString at h
    ite_cases h
    all_goals first
      | (obtain rfl := Option.some.inj h; simp_all)
      | cases h
  · rintro (⟨rfl, rfl⟩ | ⟨rfl, rfl⟩ | ⟨rfl, rfl⟩ | ⟨rfl, rfl⟩ | ⟨rfl, rfl⟩ | ⟨rfl, rfl⟩) <;> rfl

theorem convective_iff (s : Str) (c : ConvectiveType) :
    convectiveTypeFromString s = some c ↔ (s, c) ∈ convectiveNames := by
  simp only [convectiveNames, List.mem_cons, Prod.mk.injEq, List.not_mem_nil, or_false]
  constructor
  · intro h
    unfold convectiveTypeFromString at h
    ite_cases h
    all_goals first
      | (obtain rfl := Option.some.inj h; simp_all)
      | cases h
  · rintro (⟨rfl, rfl⟩ | ⟨rfl, rfl⟩ | ⟨rfl, rfl⟩ | ⟨rfl, rfl⟩) <;> rfl

theorem height_iff (s : Str) (d : Distance) :
    Distance.fromHeightString s = some d ↔ ∃ h, (∀ n ∈ h, n < 1000) ∧ s = heightText h ∧ d = heightOf h := by
  rw [C48_height]
  constructor
  · rintro (⟨rfl, rfl⟩ | ⟨n, hn, rfl, rfl⟩)
    · exact ⟨none, by simp, rfl, rfl⟩
    · exact ⟨some n, by simpa using hn, rfl, rfl⟩
  · rintro ⟨h, hh, rfl, rfl⟩
    cases h with
    | none => exact Or.inl ⟨rfl, rfl⟩
    | some n => exact Or.inr ⟨n, hh n rfl, rfl, rfl⟩

/-! ### The regular expression -/

def AmountLike (s : Str) : Prop :=
  s = c!"///" ∨ ((s.length = 2 ∨ s.length = 3) ∧ ∀ c ∈ s, 'A' ≤ c ∧ c ≤ 'Z')

def HeightLike (s : Str) : Prop := s = c!"///" ∨ ∃ n < 1000, s = decimal 3 n

def ConvLike (s : Str) : Prop :=
  s = c!"///" ∨ ∃ a ∈ c!"CT", ∃ b ∈ c!"BC", s = [a, b] ∨ s = [a, b, 'U']

theorem match_amount {w : Str} {c : Caps} :
    Rx.Match ((.AZ ⬝ .AZ ⬝ .opt .AZ) ∥ .lit c!"///") w c ↔ c = [] ∧ AmountLike w := by
  simp only [Rx.match_alt, Rx.match_seq, Rx.match_AZ, Rx.match_opt, Rx.match_lit, AmountLike]
  constructor
  · rintro (⟨_, _, _, _, ⟨x, hx, rfl, rfl⟩, ⟨_, _, _, _, ⟨y, hy, rfl, rfl⟩, ⟨z, hz, rfl, rfl⟩ | ⟨rfl, rfl⟩,
      rfl, rfl⟩, rfl, rfl⟩ | ⟨rfl, rfl⟩)
    · exact ⟨rfl, Or.inr ⟨Or.inr rfl, by simp [hx, hy, hz]⟩⟩
    · exact ⟨rfl, Or.inr ⟨Or.inl rfl, by simp [hx, hy]⟩⟩
    · exact ⟨rfl, Or.inl rfl⟩
  · rintro ⟨rfl, rfl | ⟨hl, ha⟩⟩
    · exact Or.inr ⟨rfl, rfl⟩
    · left
      rcases hl with hl | hl
      · obtain ⟨x, y, rfl⟩ := List.length_eq_two.mp hl
        exact ⟨[x], [y], [], [], ⟨x, ha x (by simp), rfl, rfl⟩, ⟨[y], [], [], [],
          ⟨y, ha y (by simp), rfl, rfl⟩, Or.inr ⟨rfl, rfl⟩, rfl, rfl⟩, rfl, rfl⟩
      · obtain ⟨x, y, z, rfl⟩ := List.length_eq_three.mp hl
        exact ⟨[x], [y, z], [], [], ⟨x, ha x (by simp), rfl, rfl⟩, ⟨[y], [z], [], [],
          ⟨y, ha y (by simp), rfl, rfl⟩, Or.inl ⟨z, ha z (by simp), rfl, rfl⟩, rfl, rfl⟩, rfl, rfl⟩

theorem match_heightLike {w : Str} {c : Caps} :
    Rx.Match ((.d ⬝ .d ⬝ .d) ∥ .lit c!"///") w c ↔ c = [] ∧ HeightLike w := by
  simp only [↓Rx.match_digits3, Rx.match_alt, Rx.match_lit, HeightLike]
  constructor
  · rintro (⟨rfl, h⟩ | ⟨rfl, rfl⟩)
    · exact ⟨rfl, Or.inr h⟩
    · exact ⟨rfl, Or.inl rfl⟩
  · rintro ⟨rfl, rfl | h⟩
    · exact Or.inr ⟨rfl, rfl⟩
    · exact Or.inl ⟨rfl, h⟩

theorem match_conv {w : Str} {c : Caps} :
    Rx.Match ((.oneOf c!"CT" ⬝ .oneOf c!"BC" ⬝ .opt (.oneOf c!"U")) ∥ .lit c!"///") w c ↔
      c = [] ∧ ConvLike w := by
  simp only [Rx.match_alt, Rx.match_seq, Rx.match_oneOf, Rx.match_opt, Rx.match_lit, ConvLike]
  constructor
  · rintro (⟨_, _, _, _, ⟨x, hx, rfl, rfl⟩, ⟨_, _, _, _, ⟨y, hy, rfl, rfl⟩, ⟨z, hz, rfl, rfl⟩ | ⟨rfl, rfl⟩,
      rfl, rfl⟩, rfl, rfl⟩ | ⟨rfl, rfl⟩)
    · simp only [List.mem_cons, List.not_mem_nil, or_false] at hz
      subst hz
      exact ⟨rfl, Or.inr ⟨x, hx, y, hy, Or.inr rfl⟩⟩
    · exact ⟨rfl, Or.inr ⟨x, hx, y, hy, Or.inl rfl⟩⟩
    · exact ⟨rfl, Or.inl rfl⟩
  · rintro ⟨rfl, rfl | ⟨x, hx, y, hy, rfl | rfl⟩⟩
    · exact Or.inr ⟨rfl, rfl⟩
    · exact Or.inl ⟨[x], [y], [], [], ⟨x, hx, rfl, rfl⟩, ⟨[y], [], [], [], ⟨y, hy, rfl, rfl⟩,
        Or.inr ⟨rfl, rfl⟩, rfl, rfl⟩, rfl, rfl⟩
    · exact Or.inl ⟨[x], [y, 'U'], [], [], ⟨x, hx, rfl, rfl⟩, ⟨[y], ['U'], [], [], ⟨y, hy, rfl, rfl⟩,
        Or.inl ⟨'U', by simp, rfl, rfl⟩, rfl, rfl⟩, rfl, rfl⟩

/-- Cloud layer as seen by the regular expression. -/
structure LayerForm where
  amount : Str
  height : Str
  conv : Option Str

namespace LayerForm

def Ok (f : LayerForm) : Prop := AmountLike f.amount ∧ HeightLike f.height ∧ ∀ c ∈ f.conv, ConvLike c

def text (f : LayerForm) : Str := f.amount ++ (f.height ++ f.conv.getD [])

def convCaps : Option Str → Caps
  | some c => [(3, c)]
  | none => []

def caps (f : LayerForm) : Caps := convCaps f.conv ++ [(2, f.height)] ++ [(1, f.amount)]

end LayerForm

theorem layer_match (s : Str) (c : Caps) :
    layerRgx.Match s c ↔ ∃ f : LayerForm, f.Ok ∧ s = f.text ∧ c = f.caps := by
  unfold layerRgx
  rw [Rx.match_seq]
  simp only [↓match_amount, ↓match_heightLike, ↓match_conv, Rx.match_cap, Rx.match_opt,
    Rx.match_seq (a := .cap 2 _)]
  constructor
  · rintro ⟨_, _, _, _, ⟨_, ⟨rfl, ha⟩, rfl⟩, ⟨_, _, _, _, ⟨_, ⟨rfl, hh⟩, rfl⟩,
      ⟨_, ⟨rfl, hc⟩, rfl⟩ | ⟨rfl, rfl⟩, rfl, rfl⟩, rfl, rfl⟩
    · exact ⟨⟨_, _, some _⟩, ⟨ha, hh, by simpa using hc⟩, rfl, rfl⟩
    · exact ⟨⟨_, _, none⟩, ⟨ha, hh, by simp⟩, rfl, rfl⟩
  · rintro ⟨⟨a, h, c⟩, ⟨ha, hh, hc⟩, rfl, rfl⟩
    refine ⟨a, h ++ c.getD [], [(1, a)], LayerForm.convCaps c ++ [(2, h)], ⟨[], ⟨rfl, ha⟩, rfl⟩,
      ⟨h, c.getD [], [(2, h)], LayerForm.convCaps c, ⟨[], ⟨rfl, hh⟩, rfl⟩, ?_, rfl, rfl⟩, rfl, rfl⟩
    cases c with
    | none => exact Or.inr ⟨rfl, rfl⟩
    | some c => exact Or.inl ⟨[], ⟨rfl, hc c rfl⟩, rfl⟩

theorem HeightLike.length {s : Str} (h : HeightLike s) : s.length = 3 := by
  rcases h with rfl | ⟨n, _, rfl⟩
  · rfl
  · exact decimal_length 3 n

theorem HeightLike.head {s : Str} (h : HeightLike s) : ∃ x r, s = x :: r ∧ ¬ ('A' ≤ x ∧ x ≤ 'Z') := by
  rcases h with rfl | ⟨n, _, rfl⟩
  · exact ⟨'/', _, rfl, by decide⟩
  · obtain ⟨a, b, c, ha, _, _, h⟩ := decimal_three_digits n
    refine ⟨a, [b, c], h, ?_⟩
    rintro ⟨h1, _⟩
    simp only [isDigit, Bool.and_eq_true, decide_eq_true_eq] at ha
    exact absurd (lt_of_le_of_lt ha.2 (by decide : '9' < 'A')) (not_lt.mpr h1)

theorem amount_split {a a' x x' : Str} (ha : AmountLike a) (ha' : AmountLike a')
    (hx : ∃ y r, x = y :: r ∧ ¬ ('A' ≤ y ∧ y ≤ 'Z')) (hx' : ∃ y r, x' = y :: r ∧ ¬ ('A' ≤ y ∧ y ≤ 'Z'))
    (h : a ++ x = a' ++ x') : a = a' ∧ x = x' := by
  have hs : ¬ ('A' ≤ '/' ∧ '/' ≤ 'Z') := by decide
  obtain ⟨y, r, rfl, hy⟩ := hx
  obtain ⟨y', r', rfl, hy'⟩ := hx'
  rcases ha with rfl | ⟨hl, ha⟩ <;> rcases ha' with rfl | ⟨hl', ha'⟩
  · simpa using h
  · rcases hl' with hl' | hl'
    · obtain ⟨p, q, rfl⟩ := List.length_eq_two.mp hl'
      simp only [List.cons_append, List.cons.injEq] at h
      exact absurd (h.1 ▸ ha' p (by simp)) hs
    · obtain ⟨p, q, t, rfl⟩ := List.length_eq_three.mp hl'
      simp only [List.cons_append, List.cons.injEq] at h
      exact absurd (h.1 ▸ ha' p (by simp)) hs
  · rcases hl with hl | hl
    · obtain ⟨p, q, rfl⟩ := List.length_eq_two.mp hl
      simp only [List.cons_append, List.cons.injEq] at h
      exact absurd (h.1.symm ▸ ha p (by simp)) hs
    · obtain ⟨p, q, t, rfl⟩ := List.length_eq_three.mp hl
      simp only [List.cons_append, List.cons.injEq] at h
      exact absurd (h.1.symm ▸ ha p (by simp)) hs
  · rcases hl with hl | hl <;> rcases hl' with hl' | hl'
    · exact List.append_inj h (by rw [hl, hl'])
    · obtain ⟨p, q, rfl⟩ := List.length_eq_two.mp hl
      obtain ⟨p', q', t', rfl⟩ := List.length_eq_three.mp hl'
      simp only [List.cons_append, List.nil_append, List.cons.injEq] at h
      rw [h.2.2.1] at hy
      exact absurd (ha' t' (by simp)) hy
    · obtain ⟨p, q, t, rfl⟩ := List.length_eq_three.mp hl
      obtain ⟨p', q', rfl⟩ := List.length_eq_two.mp hl'
      simp only [List.cons_append, List.nil_append, List.cons.injEq] at h
      rw [← h.2.2.1] at hy'
      exact absurd (ha t (by simp)) hy'
    · exact List.append_inj h (by rw [hl, hl'])

theorem ConvLike.ne_nil {s : Str} (h : ConvLike s) : s ≠ [] := by
  rcases h with rfl | ⟨a, _, b, _, rfl | rfl⟩ <;> simp

theorem layer_inj (f f' : LayerForm) (h : f.Ok) (h' : f'.Ok) (e : f.text = f'.text) :
    f.caps = f'.caps := by
  obtain ⟨a, p, c⟩ := f
  obtain ⟨a', p', c'⟩ := f'
  obtain ⟨h1, h2, h3⟩ := h
  obtain ⟨h1', h2', h3'⟩ := h'
  simp only [LayerForm.text] at e h1 h2 h3 h1' h2' h3'
  obtain ⟨x, r, hx, hx1⟩ := h2.head
  obtain ⟨x', r', hx', hx1'⟩ := h2'.head
  obtain ⟨rfl, e1⟩ := amount_split h1 h1' ⟨x, r ++ c.getD [], by rw [hx]; rfl, hx1⟩
    ⟨x', r' ++ c'.getD [], by rw [hx']; rfl, hx1'⟩ e
  obtain ⟨rfl, e3⟩ := List.append_inj e1 (by rw [h2.length, h2'.length])
  simp only [LayerForm.caps]
  congr 2
  cases c <;> cases c'
  · rfl
  · exact absurd e3.symm (h3' _ rfl).ne_nil
  · exact absurd e3 (h3 _ rfl).ne_nil
  · simp only [Option.getD_some] at e3
    rw [e3]

theorem layer_caps (f : LayerForm) :
    Caps.str f.caps 1 = f.amount ∧ Caps.str f.caps 2 = f.height ∧ Caps.str f.caps 3 = f.conv.getD [] := by
  obtain ⟨a, h, c⟩ := f
  cases c <;> exact ⟨rfl, rfl, rfl⟩

/-- C48. Clouds in the body of a report: a clear sky, or a layer with the amount, height and
convective type written, or vertical visibility. -/
theorem C48_cloud (s : Str) (p : ReportPart) (hp : p = .METAR ∨ p = .TAF) (g : CloudGroup) :
    CloudGroup.parse s p = some g ↔
      (∃ a, (s, a) ∈ noClouds ∧ g = { tp := .NO_CLOUDS, amnt := a }) ∨ LayerGroup s g := by
  have hpp : CloudGroup.parse s p = parseCloudLayerOrVertVis s := by rcases hp with rfl | rfl <;> rfl
  rw [hpp]
  have hsplit : ∀ m, regexMatch layerRgx s = some m ↔ _ := regexMatch_form layer_match layer_inj s
  constructor
  · intro h
    unfold parseCloudLayerOrVertVis at h
    ite_cases h
    · obtain rfl := Option.some.inj h
      exact Or.inl ⟨.NCD, by simp_all [noClouds], rfl⟩
    · obtain rfl := Option.some.inj h
      exact Or.inl ⟨.NSC, by simp_all [noClouds], rfl⟩
    · obtain rfl := Option.some.inj h
      exact Or.inl ⟨.NONE_CLR, by simp_all [noClouds], rfl⟩
    · obtain rfl := Option.some.inj h
      exact Or.inl ⟨.NONE_SKC, by simp_all [noClouds], rfl⟩
    · right
      cases hm : regexMatch layerRgx s with
      | none => simp [hm] at h
      | some m =>
        obtain ⟨f, hf, hs, rfl⟩ := (hsplit m).mp hm
        obtain ⟨c1, c2, c3⟩ := layer_caps f
        simp only [hm, c1, c2, c3] at h
        cases h1 : amountFromString f.amount with
        | none => simp [h1] at h
        | some a =>
          simp only [h1] at h
          cases h2 : Distance.fromHeightString f.height with
          | none => simp [h2] at h
          | some d =>
            simp only [h2] at h
            cases h3 : convectiveTypeFromString (f.conv.getD []) with
            | none => simp [h3] at h
            | some c =>
              simp only [h3] at h
              by_cases h4 : a = .OBSCURED ∧ c ≠ .NONE
              · rw [if_pos h4] at h; cases h
              · rw [if_neg h4] at h
                obtain ⟨n, hn, e, rfl⟩ := (height_iff _ _).mp h2
                refine ⟨f.amount, a, n, f.conv.getD [], c, (amount_iff _ _).mp h1, hn,
                  (convective_iff _ _).mp h3, ?_, ?_, (Option.some.inj h).symm⟩
                · intro ha
                  by_contra hc
                  exact h4 ⟨ha, hc⟩
                · rw [hs, LayerForm.text, e, List.append_assoc]
  · rintro (⟨a, ha, rfl⟩ | ⟨t, a, h, ct, c, ha, hh, hc, hac, rfl, rfl⟩)
    · simp only [noClouds, List.mem_cons, Prod.mk.injEq, List.not_mem_nil, or_false] at ha
      rcases ha with ⟨rfl, rfl⟩ | ⟨rfl, rfl⟩ | ⟨rfl, rfl⟩ | ⟨rfl, rfl⟩ <;> rfl
    · have hl : 5 ≤ (t ++ heightText h ++ ct).length := by
        have h1 : 2 ≤ t.length := by
          simp only [amountNames, List.mem_cons, Prod.mk.injEq, List.not_mem_nil, or_false] at ha
          rcases ha with ⟨rfl, rfl⟩ | ⟨rfl, rfl⟩ | ⟨rfl, rfl⟩ | ⟨rfl, rfl⟩ | ⟨rfl, rfl⟩ | ⟨rfl, rfl⟩ <;> simp
        have h2 : (heightText h).length = 3 := by
          cases h
          · rfl
          · exact decimal_length 3 _
        simp only [List.length_append]
        omega
      have hne : ∀ x : Str, x.length = 3 → t ++ heightText h ++ ct ≠ x := by
        intro x hx e
        rw [e] at hl
        omega
      let f : LayerForm := ⟨t, heightText h, if ct = [] then none else some ct⟩
      have hfc : f.conv.getD [] = ct := by
        simp only [f]
        split
        · rename_i hct
          rw [hct]; rfl
        · rfl
      have hf : f.Ok := by
        refine ⟨?_, ?_, ?_⟩
        · simp only [amountNames, List.mem_cons, Prod.mk.injEq, List.not_mem_nil, or_false] at ha
          rcases ha with ⟨rfl, rfl⟩ | ⟨rfl, rfl⟩ | ⟨rfl, rfl⟩ | ⟨rfl, rfl⟩ | ⟨rfl, rfl⟩ | ⟨rfl, rfl⟩
          all_goals simp [f, AmountLike]
          all_goals decide
        · cases h with
          | none => exact Or.inl rfl
          | some n => exact Or.inr ⟨n, hh n rfl, rfl⟩
        · simp only [convectiveNames, List.mem_cons, Prod.mk.injEq, List.not_mem_nil, or_false] at hc
          rcases hc with ⟨rfl, rfl⟩ | ⟨rfl, rfl⟩ | ⟨rfl, rfl⟩ | ⟨rfl, rfl⟩ <;> simp [f, ConvLike]
      have hm := (hsplit f.caps).mpr ⟨f, hf, by rw [LayerForm.text, hfc, List.append_assoc], rfl⟩
      obtain ⟨c1, c2, c3⟩ := layer_caps f
      unfold parseCloudLayerOrVertVis
      rw [if_neg (hne _ rfl), if_neg (hne _ rfl), if_neg (hne _ rfl), if_neg (hne _ rfl)]
      simp only [hm, c1, c2, c3, hfc]
      have e1 : amountFromString f.amount = some a := (amount_iff _ _).mpr ha
      have e2 : Distance.fromHeightString f.height = some (heightOf h) := (height_iff _ _).mpr ⟨h, hh, rfl, rfl⟩
      have e3 := (convective_iff _ _).mpr hc
      simp only [e1, e2, e3]
      rw [if_neg]
      rintro ⟨h1, h2⟩
      exact h2 (hac h1)

/-! ### Remarks -/

/-- The words that can be followed by the amount and height of an obscuration. -/
def remarkObscurations : List (Str × CloudTypeKind) :=
  [(c!"BLSN", .BLOWING_SNOW), (c!"BLDU", .BLOWING_DUST), (c!"BLSA", .BLOWING_SAND),
   (c!"VA", .VOLCANIC_ASH), (c!"FU", .SMOKE), (c!"FG", .FOG)]

/-- The text `s` is an amount of clouds of three letters and possibly a height. -/
def AmountText (s : Str) (a : Amount) (h : Option Nat) : Prop :=
  ∃ t, (t, a) ∈ [(c!"FEW", Amount.FEW), (c!"SCT", .SCATTERED), (c!"BKN", .BROKEN), (c!"OVC", .OVERCAST)] ∧
    (∀ n ∈ h, n < 1000) ∧ s = t ++ (h.map (decimal 3)).getD []

theorem match_three_letters {w : Str} {c : Caps} :
    Rx.Match (.AZ ⬝ .AZ ⬝ .AZ) w c ↔ c = [] ∧ w.length = 3 ∧ ∀ x ∈ w, 'A' ≤ x ∧ x ≤ 'Z' := by
  simp only [Rx.match_seq, Rx.match_AZ]
  constructor
  · rintro ⟨_, _, _, _, ⟨x, hx, rfl, rfl⟩, ⟨_, _, _, _, ⟨y, hy, rfl, rfl⟩, ⟨z, hz, rfl, rfl⟩, rfl, rfl⟩,
      rfl, rfl⟩
    exact ⟨rfl, rfl, by simp [hx, hy, hz]⟩
  · rintro ⟨rfl, hl, ha⟩
    obtain ⟨x, y, z, rfl⟩ := List.length_eq_three.mp hl
    exact ⟨[x], [y, z], [], [], ⟨x, ha x (by simp), rfl, rfl⟩, ⟨[y], [z], [], [],
      ⟨y, ha y (by simp), rfl, rfl⟩, ⟨z, ha z (by simp), rfl, rfl⟩, rfl, rfl⟩, rfl, rfl⟩

def threeOk (f : Str × Option Nat) : Prop :=
  (f.1.length = 3 ∧ ∀ x ∈ f.1, 'A' ≤ x ∧ x ≤ 'Z') ∧ ∀ n ∈ f.2, n < 1000

def threeText (f : Str × Option Nat) : Str := f.1 ++ (f.2.map (decimal 3)).getD []

def threeCaps (f : Str × Option Nat) : Caps :=
  (match f.2 with
    | some n => [(2, decimal 3 n)]
    | none => []) ++ [(1, f.1)]

theorem variableLayer_match (s : Str) (c : Caps) :
    variableLayerRgx.Match s c ↔ ∃ f, threeOk f ∧ s = threeText f ∧ c = threeCaps f := by
  unfold variableLayerRgx
  rw [Rx.match_seq]
  simp only [↓match_three_letters, ↓Rx.match_digits3, Rx.match_cap, Rx.match_opt]
  constructor
  · rintro ⟨u, _, _, _, ⟨_, ⟨rfl, ha⟩, rfl⟩, ⟨_, ⟨rfl, n, hn, rfl⟩, rfl⟩ | ⟨rfl, rfl⟩, rfl, rfl⟩
    · exact ⟨(u, some n), ⟨ha, by simpa using hn⟩, rfl, rfl⟩
    · exact ⟨(u, none), ⟨ha, by simp⟩, rfl, rfl⟩
  · rintro ⟨⟨u, h⟩, ⟨ha, hh⟩, rfl, rfl⟩
    refine ⟨u, (h.map (decimal 3)).getD [], [(1, u)], _, ⟨[], ⟨rfl, ha⟩, rfl⟩, ?_, rfl, rfl⟩
    cases h with
    | none => exact Or.inr ⟨rfl, rfl⟩
    | some n => exact Or.inl ⟨[], ⟨rfl, n, hh n rfl, rfl⟩, rfl⟩

theorem three_inj (f f' : Str × Option Nat) (h : threeOk f) (h' : threeOk f')
    (e : threeText f = threeText f') : threeCaps f = threeCaps f' := by
  obtain ⟨u, o⟩ := f
  obtain ⟨u', o'⟩ := f'
  obtain ⟨rfl, e2⟩ := List.append_inj e (by rw [h.1.1, h'.1.1])
  have key : ∀ n, decimal 3 n ≠ [] := by
    intro n hn
    have := congrArg List.length hn
    simp [decimal_length] at this
  cases o <;> cases o'
  · rfl
  · exact absurd e2.symm (key _)
  · exact absurd e2 (key _)
  · simp only [Option.map_some, Option.getD_some] at e2
    simp only [threeCaps, e2]

/-- The amounts of three letters. -/
theorem amount_three {t : Str} {a : Amount} (hl : t.length = 3) (ha : ∀ x ∈ t, 'A' ≤ x ∧ x ≤ 'Z') :
    (t, a) ∈ amountNames ↔ (t, a) ∈ [(c!"FEW", Amount.FEW), (c!"SCT", .SCATTERED), (c!"BKN", .BROKEN),
      (c!"OVC", .OVERCAST)] := by
  simp only [amountNames, List.mem_cons, Prod.mk.injEq, List.not_mem_nil, or_false]
  constructor
  · rintro (h | h | h | h | ⟨rfl, rfl⟩ | ⟨rfl, rfl⟩)
    · exact Or.inl h
    · exact Or.inr (Or.inl h)
    · exact Or.inr (Or.inr (Or.inl h))
    · exact Or.inr (Or.inr (Or.inr h))
    · cases hl
    · exact absurd (ha '/' (by simp)) (by decide)
  · rintro (h | h | h | h)
    · exact Or.inl h
    · exact Or.inr (Or.inl h)
    · exact Or.inr (Or.inr (Or.inl h))
    · exact Or.inr (Or.inr (Or.inr (Or.inl h)))

theorem amountText_form {s : Str} {a : Amount} {h : Option Nat} (hs : AmountText s a h) :
    ∃ t, (t, a) ∈ amountNames ∧ threeOk (t, h) ∧ s = threeText (t, h) := by
  obtain ⟨t, ht, hh, rfl⟩ := hs
  have h3 : t.length = 3 ∧ ∀ x ∈ t, 'A' ≤ x ∧ x ≤ 'Z' := by
    simp only [List.mem_cons, Prod.mk.injEq, List.not_mem_nil, or_false] at ht
    rcases ht with ⟨rfl, _⟩ | ⟨rfl, _⟩ | ⟨rfl, _⟩ | ⟨rfl, _⟩ <;> decide
  exact ⟨t, (amount_three h3.1 h3.2).mpr ht, ⟨h3, hh⟩, rfl⟩

theorem variableLayer_iff (s : Str) (g : CloudGroup) :
    parseVariableCloudLayer s = some g ↔ ∃ a h, AmountText s a h ∧
      g = { tp := .CLOUD_LAYER, incompleteText := .RMK_AMOUNT, amnt := a
            heightOrVertVis := (h.map fun n => ⟨.NONE, some (100 * n), .FEET⟩).getD {} } := by
  have hsplit := regexMatch_form variableLayer_match three_inj s
  have hcaps : ∀ t h, Caps.str (threeCaps (t, h)) 1 = t ∧
      Caps.str (threeCaps (t, h)) 2 = (h.map (decimal 3)).getD [] := by
    intro t h
    cases h <;> exact ⟨rfl, rfl⟩
  have key : ∀ n, (decimal 3 n).isEmpty = false := by
    intro n
    have := decimal_length 3 n
    cases h : decimal 3 n with
    | nil => rw [h] at this; cases this
    | cons => rfl
  constructor
  · intro hg
    unfold parseVariableCloudLayer at hg
    cases hm : regexMatch variableLayerRgx s with
    | none => simp [hm] at hg
    | some m =>
      obtain ⟨⟨t, h⟩, hok, hs, rfl⟩ := (hsplit m).mp hm
      simp only [hm, (hcaps t h).1, (hcaps t h).2] at hg
      cases ha : amountFromString t with
      | none => simp [ha] at hg
      | some a =>
        simp only [ha] at hg
        refine ⟨a, h, ⟨t, (amount_three hok.1.1 hok.1.2).mp ((amount_iff _ _).mp ha), hok.2, hs⟩, ?_⟩
        cases h with
        | none => exact (Option.some.inj hg).symm
        | some n =>
          simp only [Option.map_some, Option.getD_some, key] at hg
          rw [(C48_height _ _).mpr (Or.inr ⟨n, hok.2 n rfl, rfl, rfl⟩)] at hg
          exact (Option.some.inj hg).symm
  · rintro ⟨a, h, hs, rfl⟩
    obtain ⟨t, ht, hok, rfl⟩ := amountText_form hs
    have hm := (hsplit (threeCaps (t, h))).mpr ⟨(t, h), hok, rfl, rfl⟩
    unfold parseVariableCloudLayer
    simp only [hm, (hcaps t h).1, (hcaps t h).2, (amount_iff _ _).mpr ht]
    cases h with
    | none => rfl
    | some n =>
      simp only [Option.map_some, Option.getD_some, key]
      rw [(C48_height _ _).mpr (Or.inr ⟨n, hok.2 n rfl, rfl, rfl⟩)]
      rfl

theorem obscuration_iff (s : Str) (c : CloudType) :
    CloudType.fromStringObscuration s = some c ↔ ∃ k, (s, k) ∈ remarkObscurations ∧ c = { tp := k } := by
  simp only [remarkObscurations, List.mem_cons, Prod.mk.injEq, List.not_mem_nil, or_false]
  constructor
  · intro h
    unfold CloudType.fromStringObscuration at h
    ite_cases h
    all_goals first
      | (obtain rfl := Option.some.inj h; exact ⟨_, by simp_all, rfl⟩)
      | cases h
  · rintro ⟨k, ⟨rfl, rfl⟩ | ⟨rfl, rfl⟩ | ⟨rfl, rfl⟩ | ⟨rfl, rfl⟩ | ⟨rfl, rfl⟩ | ⟨rfl, rfl⟩, rfl⟩ <;> rfl

/-- C48. Clouds in remarks: the words, obscurations, and amounts of clouds that are recognised. -/
theorem C48_remark (s : Str) (g : CloudGroup) :
    CloudGroup.parse s .RMK = some g ↔
      (s = c!"CLD" ∧ g = { tp := .CLD_MISG, incompleteText := .CLD }) ∨
      (s = c!"CIG" ∧ g = { tp := .CEILING, incompleteText := .CIG }) ∨
      (s = c!"CHINO" ∧ g = { tp := .CHINO, incompleteText := .CHINO }) ∨
      (∃ k, (s, k) ∈ remarkObscurations ∧
        g = { tp := .OBSCURATION, incompleteText := .OBSCURATION, cldTp := { tp := k } }) ∨
      (∃ a h, AmountText s a h ∧
        g = { tp := .CLOUD_LAYER, incompleteText := .RMK_AMOUNT, amnt := a
              heightOrVertVis := (h.map fun n => ⟨.NONE, some (100 * n), .FEET⟩).getD {} }) := by
  constructor
  · intro h
    unfold CloudGroup.parse at h
    simp only at h
    ite_cases h
    · exact Or.inl ⟨by assumption, (Option.some.inj h).symm⟩
    · exact Or.inr (Or.inl ⟨by assumption, (Option.some.inj h).symm⟩)
    · exact Or.inr (Or.inr (Or.inl ⟨by assumption, (Option.some.inj h).symm⟩))
    · cases hc : CloudType.fromStringObscuration s with
      | some c =>
        simp only [hc] at h
        obtain ⟨k, hk, rfl⟩ := (obscuration_iff _ _).mp hc
        exact Or.inr (Or.inr (Or.inr (Or.inl ⟨k, hk, (Option.some.inj h).symm⟩)))
      | none =>
        simp only [hc] at h
        exact Or.inr (Or.inr (Or.inr (Or.inr ((variableLayer_iff _ _).mp h))))
  · rintro (⟨rfl, rfl⟩ | ⟨rfl, rfl⟩ | ⟨rfl, rfl⟩ | ⟨k, hk, rfl⟩ | h)
    · rfl
    · rfl
    · rfl
    · have h1 := (obscuration_iff s _).mpr ⟨k, hk, rfl⟩
      unfold CloudGroup.parse
      simp only [h1]
      simp only [remarkObscurations, List.mem_cons, Prod.mk.injEq, List.not_mem_nil, or_false] at hk
      rcases hk with ⟨rfl, rfl⟩ | ⟨rfl, rfl⟩ | ⟨rfl, rfl⟩ | ⟨rfl, rfl⟩ | ⟨rfl, rfl⟩ | ⟨rfl, rfl⟩ <;> rfl
    · have h1 := (variableLayer_iff s g).mpr h
      obtain ⟨a, n, ⟨t, ht, _, rfl⟩, _⟩ := h
      unfold CloudGroup.parse
      simp only [List.mem_cons, Prod.mk.injEq, List.not_mem_nil, or_false] at ht
      rcases ht with ⟨rfl, rfl⟩ | ⟨rfl, rfl⟩ | ⟨rfl, rfl⟩ | ⟨rfl, rfl⟩
      all_goals
        simp only [List.cons_append, List.nil_append, List.cons.injEq, Char.reduceEq, false_and, and_false, reduceIte,
          CloudType.fromStringObscuration]
        exact h1

/-- C48. The ceiling in remarks: a height, or two heights between which it varies. -/
theorem C48_ceiling (g g' : CloudGroup) (s : Str) (hg : g.incompleteText = .CIG) :
    g.append s = (g', .APPENDED) ↔
      (∃ n < 1000, s = decimal 3 n ∧
        g' = { g with heightOrVertVis := ⟨.NONE, some (100 * n), .FEET⟩, incompleteText := .CIG_NUM }) ∨
      (∃ n m, n < 1000 ∧ m < 1000 ∧ s = decimal 3 n ++ 'V' :: decimal 3 m ∧
        g' = { g with tp := .VARIABLE_CEILING
                      heightOrVertVis := ⟨.NONE, some (100 * n), .FEET⟩
                      maxHt := ⟨.NONE, some (100 * m), .FEET⟩
                      incompleteText := .CIG_NUM }) := by
  have hmatch : ∀ s c, ceilingRgx.Match s c ↔ ∃ f : Nat × Nat, (f.1 < 1000 ∧ f.2 < 1000) ∧
      s = decimal 3 f.1 ++ 'V' :: decimal 3 f.2 ∧ c = [(2, decimal 3 f.2), (1, decimal 3 f.1)] := by
    intro s c
    unfold ceilingRgx
    rw [Rx.match_seq]
    simp only [↓Rx.match_digits3, Rx.match_cap, Rx.match_seq (a := .chr 'V'), Rx.match_chr]
    constructor
    · rintro ⟨_, _, _, _, ⟨_, ⟨rfl, n, hn, rfl⟩, rfl⟩, ⟨_, _, _, _, ⟨rfl, rfl⟩,
        ⟨_, ⟨rfl, m, hm, rfl⟩, rfl⟩, rfl, rfl⟩, rfl, rfl⟩
      exact ⟨(n, m), ⟨hn, hm⟩, rfl, rfl⟩
    · rintro ⟨⟨n, m⟩, ⟨hn, hm⟩, rfl, rfl⟩
      exact ⟨decimal 3 n, 'V' :: decimal 3 m, [(1, decimal 3 n)], [(2, decimal 3 m)],
        ⟨[], ⟨rfl, n, hn, rfl⟩, rfl⟩, ⟨['V'], decimal 3 m, [], [(2, decimal 3 m)], ⟨rfl, rfl⟩,
          ⟨[], ⟨rfl, m, hm, rfl⟩, rfl⟩, rfl, rfl⟩, rfl, rfl⟩
  have hinj : ∀ f f' : Nat × Nat, (f.1 < 1000 ∧ f.2 < 1000) → (f'.1 < 1000 ∧ f'.2 < 1000) →
      decimal 3 f.1 ++ 'V' :: decimal 3 f.2 = decimal 3 f'.1 ++ 'V' :: decimal 3 f'.2 →
      ([(2, decimal 3 f.2), (1, decimal 3 f.1)] : Caps) = [(2, decimal 3 f'.2), (1, decimal 3 f'.1)] := by
    intro f f' _ _ e
    obtain ⟨e1, e2⟩ := List.append_inj e (by rw [decimal_length, decimal_length])
    simp only [List.cons.injEq, true_and] at e2
    rw [e1, e2]
  have hsplit := regexMatch_form hmatch hinj
  have happ : g.append s = g.appendCeiling s := by
    unfold CloudGroup.append
    rw [hg]
  rw [happ]
  constructor
  · intro h
    unfold appendCeiling at h
    cases hh : Distance.fromHeightString s with
    | some d =>
      simp only [hh] at h
      rcases (C48_height s d).mp hh with ⟨rfl, rfl⟩ | ⟨n, hn, rfl, rfl⟩
      · cases (Prod.mk.inj h).2
      · exact Or.inl ⟨n, hn, rfl, (Prod.mk.inj h).1.symm⟩
    | none =>
      simp only [hh] at h
      cases hm : regexMatch ceilingRgx s with
      | none =>
        simp only [hm] at h
        cases (Prod.mk.inj h).2
      | some m =>
        obtain ⟨⟨n, k⟩, ⟨hn, hk⟩, rfl, rfl⟩ := (hsplit s m).mp hm
        simp only [hm] at h
        rw [show Caps.str [(2, decimal 3 k), (1, decimal 3 n)] 1 = decimal 3 n from rfl,
          show Caps.str [(2, decimal 3 k), (1, decimal 3 n)] 2 = decimal 3 k from rfl,
          (C48_height _ _).mpr (Or.inr ⟨n, hn, rfl, rfl⟩),
          (C48_height _ _).mpr (Or.inr ⟨k, hk, rfl, rfl⟩)] at h
        exact Or.inr ⟨n, k, hn, hk, rfl, (Prod.mk.inj h).1.symm⟩
  · rintro (⟨n, hn, rfl, rfl⟩ | ⟨n, k, hn, hk, rfl, rfl⟩)
    · unfold appendCeiling
      rw [(C48_height _ _).mpr (Or.inr ⟨n, hn, rfl, rfl⟩)]
      rfl
    · have h0 : Distance.fromHeightString (decimal 3 n ++ 'V' :: decimal 3 k) = none := by
        cases h : Distance.fromHeightString (decimal 3 n ++ 'V' :: decimal 3 k) with
        | none => rfl
        | some d =>
          rcases (C48_height _ d).mp h with ⟨e, _⟩ | ⟨i, _, e, _⟩
          · have := congrArg List.length e
            simp [decimal_length] at this
          · have := congrArg List.length e
            simp [decimal_length] at this
      unfold appendCeiling
      simp only [h0]
      rw [(hsplit _ _).mpr ⟨(n, k), ⟨hn, hk⟩, rfl, rfl⟩]
      simp only
      rw [show Caps.str [(2, decimal 3 k), (1, decimal 3 n)] 1 = decimal 3 n from rfl,
        show Caps.str [(2, decimal 3 k), (1, decimal 3 n)] 2 = decimal 3 k from rfl,
        (C48_height _ _).mpr (Or.inr ⟨n, hn, rfl, rfl⟩),
        (C48_height _ _).mpr (Or.inr ⟨k, hk, rfl, rfl⟩)]

/-- The amounts between which the sky condition can vary. -/
def variableAmounts : List (Amount × Str × Amount) :=
  [(.FEW, c!"SCT", .VARIABLE_FEW_SCATTERED), (.SCATTERED, c!"BKN", .VARIABLE_SCATTERED_BROKEN),
   (.BROKEN, c!"OVC", .VARIABLE_BROKEN_OVERCAST)]

/-- C48. Variable amount of clouds: `V` and the next higher amount. -/
theorem C48_variable (g g' : CloudGroup) (s : Str) (hg : g.incompleteText = .RMK_AMOUNT_V) :
    g.append s = (g', .APPENDED) ↔
      ∃ v, (g.amnt, s, v) ∈ variableAmounts ∧ g' = { g with amnt := v, incompleteText := .NONE } := by
  have happ : g.append s = g.appendVariableCloudAmount s := by
    unfold CloudGroup.append
    rw [hg]
  rw [happ]
  obtain ⟨tp, a1, hv, mh, cv, rw_, dr, ct, it⟩ := g
  unfold appendVariableCloudAmount
  cases ha : amountFromString s with
  | none =>
    simp only [Prod.mk.injEq, reduceCtorEq, and_false, false_iff]
    rintro ⟨v, hv, _⟩
    simp only [variableAmounts, List.mem_cons, Prod.mk.injEq, List.not_mem_nil, or_false] at hv
    rcases hv with ⟨_, rfl, _⟩ | ⟨_, rfl, _⟩ | ⟨_, rfl, _⟩ <;> cases ha
  | some a =>
    have hs := (amount_iff s a).mp ha
    simp only [amountNames, List.mem_cons, Prod.mk.injEq, List.not_mem_nil, or_false] at hs
    simp only [variableAmounts, List.mem_cons, Prod.mk.injEq, List.not_mem_nil, or_false]
    rcases hs with ⟨rfl, rfl⟩ | ⟨rfl, rfl⟩ | ⟨rfl, rfl⟩ | ⟨rfl, rfl⟩ | ⟨rfl, rfl⟩ | ⟨rfl, rfl⟩ <;>
      cases a1 <;> simp [eq_comm]

/-- C48. Amount and height of an obscuration. -/
theorem C48_obscuration (g g' : CloudGroup) (s : Str) (hg : g.incompleteText = .OBSCURATION) :
    g.append s = (g', .APPENDED) ↔
      ∃ a n, AmountText s a (some n) ∧
        g' = { g with amnt := a
                      heightOrVertVis := ⟨.NONE, some (100 * n), .FEET⟩
                      cldTp := ⟨g.cldTp.tp, ⟨.NONE, some (100 * n), .FEET⟩, maxOkta a⟩
                      incompleteText := .NONE } := by
  have hmatch : ∀ s c, obscurationRgx.Match s c ↔ ∃ f : Str × Nat, threeOk (f.1, some f.2) ∧
      s = threeText (f.1, some f.2) ∧ c = threeCaps (f.1, some f.2) := by
    intro s c
    unfold obscurationRgx
    rw [Rx.match_seq]
    simp only [↓match_three_letters, ↓Rx.match_digits3, Rx.match_cap]
    constructor
    · rintro ⟨u, _, _, _, ⟨_, ⟨rfl, ha⟩, rfl⟩, ⟨_, ⟨rfl, n, hn, rfl⟩, rfl⟩, rfl, rfl⟩
      exact ⟨(u, n), ⟨ha, by simpa using hn⟩, rfl, rfl⟩
    · rintro ⟨⟨u, n⟩, ⟨ha, hh⟩, rfl, rfl⟩
      exact ⟨u, decimal 3 n, [(1, u)], [(2, decimal 3 n)], ⟨[], ⟨rfl, ha⟩, rfl⟩,
        ⟨[], ⟨rfl, n, hh n rfl, rfl⟩, rfl⟩, rfl, rfl⟩
  have hsplit := regexMatch_form hmatch (fun f f' h h' e => three_inj _ _ h h' e)
  have happ : g.append s = g.appendObscuration s := by
    unfold CloudGroup.append
    rw [hg]
  have hok : ∀ a, amountToMaxOkta a = maxOkta a := by intro a; cases a <;> rfl
  rw [happ]
  constructor
  · intro h
    unfold appendObscuration at h
    cases hm : regexMatch obscurationRgx s with
    | none =>
      simp only [hm] at h
      cases (Prod.mk.inj h).2
    | some m =>
      obtain ⟨⟨t, n⟩, ht, rfl, rfl⟩ := (hsplit s m).mp hm
      simp only [hm] at h
      rw [show Caps.str (threeCaps (t, some n)) 1 = t from rfl,
        show Caps.str (threeCaps (t, some n)) 2 = decimal 3 n from rfl,
        (C48_height _ _).mpr (Or.inr ⟨n, ht.2 n rfl, rfl, rfl⟩)] at h
      simp only at h
      cases ha : amountFromString t with
      | none =>
        simp only [ha] at h
        cases (Prod.mk.inj h).2
      | some a =>
        simp only [ha, hok] at h
        exact ⟨a, n, ⟨t, (amount_three ht.1.1 ht.1.2).mp ((amount_iff _ _).mp ha), ht.2, rfl⟩,
          (Prod.mk.inj h).1.symm⟩
  · rintro ⟨a, n, hs, rfl⟩
    obtain ⟨t, ha, ht, rfl⟩ := amountText_form hs
    unfold appendObscuration
    rw [(hsplit _ _).mpr ⟨(t, n), ht, rfl, rfl⟩]
    simp only
    rw [show Caps.str (threeCaps (t, some n)) 1 = t from rfl,
      show Caps.str (threeCaps (t, some n)) 2 = decimal 3 n from rfl,
      (C48_height _ _).mpr (Or.inr ⟨n, ht.2 n rfl, rfl, rfl⟩)]
    simp only [(amount_iff _ _).mpr ha, hok]

/-- C48. The runway or direction of a ceiling. What is neither ends the group without becoming part
of it. -/
theorem C48_where (g : CloudGroup) (s : Str) (hg : g.incompleteText = .CIG_NUM ∨ g.incompleteText = .CHINO) :
    (∃ r, Runway.fromString s true = some r ∧
      g.append s = ({ g with rw := some r, incompleteText := .NONE }, .APPENDED)) ∨
    (∃ d, Direction.fromCardinalString s = some d ∧
      g.append s = ({ g with rw := none, dir := some d, incompleteText := .NONE }, .APPENDED)) ∨
    (g.append s = ({ g with rw := none, dir := none, incompleteText := .NONE }, .NOT_APPENDED)) := by
  have happ : g.append s = g.appendRunwayOrCardinalDirection s := by
    unfold CloudGroup.append
    rcases hg with h | h <;> rw [h]
  rw [happ]
  unfold appendRunwayOrCardinalDirection
  cases hr : Runway.fromString s true with
  | some r => exact Or.inl ⟨r, rfl, by simp⟩
  | none =>
    cases hd : Direction.fromCardinalString s with
    | some d => exact Or.inr (Or.inl ⟨d, rfl, by simp⟩)
    | none => exact Or.inr (Or.inr (by simp))

/-! ### Okta values -/

/-- Groups of clouds that arise from the texts of a report. -/
inductive CloudBuilt : CloudGroup → Prop
  | parse {s : Str} {p : ReportPart} {g : CloudGroup} : CloudGroup.parse s p = some g → CloudBuilt g
  | append {s : Str} {g : CloudGroup} : CloudBuilt g → CloudBuilt (g.append s).1

/-- What holds for such groups. -/
def CloudInv (g : CloudGroup) : Prop :=
  (g.tp = .OBSCURATION → (g.incompleteText = .OBSCURATION ∨ g.incompleteText = .NONE) ∧
    g.cldTp.okt = maxOkta g.amnt ∧ g.cldTp.ht = g.heightOrVertVis) ∧
  (g.incompleteText = .OBSCURATION → g.tp = .OBSCURATION)

theorem cloud_inv {g : CloudGroup} (h : CloudBuilt g) : CloudInv g := by
  induction h with
  | @parse s p g h =>
    have hlay : (∃ a, (s, a) ∈ noClouds ∧ g = { tp := .NO_CLOUDS, amnt := a }) ∨ LayerGroup s g →
        CloudInv g := by
      rintro (⟨a, _, rfl⟩ | ⟨_, a, _, _, _, _, _, _, _, _, rfl⟩)
      · exact ⟨by simp, by simp⟩
      · by_cases ha : a = .OBSCURED
        · exact ⟨by simp [ha], by simp⟩
        · exact ⟨by simp [ha], by simp⟩
    cases p with
    | METAR => exact hlay ((C48_cloud s _ (Or.inl rfl) g).mp h)
    | TAF => exact hlay ((C48_cloud s _ (Or.inr rfl) g).mp h)
    | RMK =>
      rcases (C48_remark s g).mp h with ⟨_, rfl⟩ | ⟨_, rfl⟩ | ⟨_, rfl⟩ | ⟨k, _, rfl⟩ | ⟨a, n, _, rfl⟩
      · exact ⟨by simp, by simp⟩
      · exact ⟨by simp, by simp⟩
      · exact ⟨by simp, by simp⟩
      · exact ⟨fun _ => ⟨Or.inl rfl, rfl, rfl⟩, fun _ => rfl⟩
      · exact ⟨by simp, by simp⟩
    | UNKNOWN => cases h
    | HEADER => cases h
  | @append s g _ ih =>
    obtain ⟨ih1, ih2⟩ := ih
    have hok : ∀ a, amountToMaxOkta a = maxOkta a := by intro a; cases a <;> rfl
    unfold CloudGroup.append
    cases hi : g.incompleteText with
    | NONE => exact ⟨ih1, ih2⟩
    | RMK_AMOUNT =>
      have ht : g.tp ≠ .OBSCURATION := by intro h; have := (ih1 h).1; simp [hi] at this
      simp only
      split
      · exact ⟨ih1, ih2⟩
      · exact ⟨fun h => absurd h ht, by simp⟩
    | RMK_AMOUNT_V =>
      have ht : g.tp ≠ .OBSCURATION := by intro h; have := (ih1 h).1; simp [hi] at this
      have key : ∀ v : Amount, CloudInv (if v = .NOT_REPORTED then (g, AppendResult.GROUP_INVALIDATED)
          else ({ g with amnt := v, incompleteText := .NONE }, .APPENDED)).1 := by
        intro v
        split
        · exact ⟨ih1, ih2⟩
        · exact ⟨fun h => absurd h ht, by simp⟩
      simp only [appendVariableCloudAmount]
      split
      · exact ⟨ih1, ih2⟩
      · exact key _
    | CIG =>
      have ht : g.tp ≠ .OBSCURATION := by intro h; have := (ih1 h).1; simp [hi] at this
      simp only [appendCeiling]
      split
      · split
        · exact ⟨ih1, ih2⟩
        · exact ⟨fun h => absurd h ht, by simp⟩
      · split
        · exact ⟨ih1, ih2⟩
        · split
          · exact ⟨ih1, ih2⟩
          · split
            · exact ⟨ih1, ih2⟩
            · exact ⟨by simp, by simp⟩
    | CIG_NUM =>
      have ht : g.tp ≠ .OBSCURATION := by intro h; have := (ih1 h).1; simp [hi] at this
      simp only [appendRunwayOrCardinalDirection]
      split
      · exact ⟨fun h => absurd h ht, by simp⟩
      · split <;> exact ⟨fun h => absurd h ht, by simp⟩
    | CHINO =>
      have ht : g.tp ≠ .OBSCURATION := by intro h; have := (ih1 h).1; simp [hi] at this
      simp only [appendRunwayOrCardinalDirection]
      split
      · exact ⟨fun h => absurd h ht, by simp⟩
      · split <;> exact ⟨fun h => absurd h ht, by simp⟩
    | CLD =>
      have ht : g.tp ≠ .OBSCURATION := by intro h; have := (ih1 h).1; simp [hi] at this
      simp only
      split
      · exact ⟨ih1, ih2⟩
      · exact ⟨fun h => absurd h ht, by simp⟩
    | OBSCURATION =>
      simp only [appendObscuration]
      split
      · exact ⟨ih1, ih2⟩
      · split
        · exact ⟨ih1, ih2⟩
        · split
          · exact ⟨ih1, ih2⟩
          · exact ⟨fun _ => ⟨Or.inr rfl, hok _, rfl⟩, by simp⟩

/-- C48. The okta value of a cloud group is the largest number of eighths for the amount of clouds,
and is not above eight. -/
theorem C48_okta {g : CloudGroup} (h : CloudBuilt g) {t : CloudType} (ht : g.cloudType = some t) :
    t.okt = maxOkta g.amnt ∧ t.okt ≤ 8 := by
  have hok : ∀ a, amountToMaxOkta a = maxOkta a := by intro a; cases a <;> rfl
  have h8 : ∀ a, maxOkta a ≤ 8 := by intro a; cases a <;> decide
  have : t.okt = maxOkta g.amnt := by
    unfold cloudType at ht
    cases htp : g.tp with
    | OBSCURATION =>
      simp only [htp] at ht
      rw [← Option.some.inj ht]
      exact ((cloud_inv h).1 htp).2.1
    | CLOUD_LAYER => simp only [htp] at ht; rw [← Option.some.inj ht]; exact hok _
    | CEILING => simp only [htp] at ht; rw [← Option.some.inj ht]; exact hok _
    | VARIABLE_CEILING => simp only [htp] at ht; rw [← Option.some.inj ht]; exact hok _
    | NO_CLOUDS => simp only [htp] at ht; cases ht
    | VERTICAL_VISIBILITY => simp only [htp] at ht; cases ht
    | CHINO => simp only [htp] at ht; cases ht
    | CLD_MISG => simp only [htp] at ht; cases ht
  rw [this]
  exact ⟨rfl, h8 _⟩

/-! ### Cases -/

example : CloudGroup.parse c!"BKN025TCU" .METAR =
    some { tp := .CLOUD_LAYER, amnt := .BROKEN, heightOrVertVis := ⟨.NONE, some 2500, .FEET⟩,
           convtype := .TOWERING_CUMULUS } :=
  (C48_cloud _ _ (Or.inl rfl) _).mpr (Or.inr ⟨c!"BKN", .BROKEN, some 25, c!"TCU", .TOWERING_CUMULUS,
    by decide, by simp, by decide, by simp, by decide, rfl⟩)

example : CloudGroup.parse c!"VV///" .TAF =
    some { tp := .VERTICAL_VISIBILITY, amnt := .OBSCURED, heightOrVertVis := ⟨.NONE, none, .FEET⟩ } :=
  (C48_cloud _ _ (Or.inr rfl) _).mpr (Or.inr ⟨c!"VV", .OBSCURED, none, [], .NONE,
    by decide, by simp, by decide, by simp, by decide, rfl⟩)

/-- `FG SCT000`. -/
example : ∃ g, CloudBuilt g ∧ g.cloudType = some ⟨.FOG, ⟨.NONE, some 0, .FEET⟩, 4⟩ := by
  have h1 : CloudGroup.parse c!"FG" .RMK =
      some { tp := .OBSCURATION, incompleteText := .OBSCURATION, cldTp := { tp := .FOG } } :=
    (C48_remark _ _).mpr (Or.inr (Or.inr (Or.inr (Or.inl ⟨.FOG, by decide, rfl⟩))))
  have h2 := (C48_obscuration { tp := .OBSCURATION, incompleteText := .OBSCURATION, cldTp := { tp := .FOG } }
    _ c!"SCT000" rfl).mpr ⟨.SCATTERED, 0, ⟨c!"SCT", by decide, by simp, by decide⟩, rfl⟩
  refine ⟨_, .append (s := c!"SCT000") (.parse h1), ?_⟩
  rw [h2]
  rfl

/-- `CIG 005V010`. -/
example : (CloudGroup.append { tp := .CEILING, incompleteText := .CIG } c!"005V010") =
    ({ tp := .VARIABLE_CEILING, heightOrVertVis := ⟨.NONE, some 500, .FEET⟩,
       maxHt := ⟨.NONE, some 1000, .FEET⟩, incompleteText := .CIG_NUM }, .APPENDED) :=
  (C48_ceiling _ _ _ rfl).mpr (Or.inr ⟨5, 10, by decide, by decide, by decide, rfl⟩)

/-- `SCT V BKN`. -/
example : (CloudGroup.append { amnt := .SCATTERED, incompleteText := .RMK_AMOUNT_V } c!"BKN") =
    ({ amnt := .VARIABLE_SCATTERED_BROKEN }, .APPENDED) :=
  (C48_variable _ _ _ rfl).mpr ⟨_, by decide, rfl⟩

end Metaf.Props
