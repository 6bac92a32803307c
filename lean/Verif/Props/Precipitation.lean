import Verif.Model.GroupsC
import Verif.Proofs.RegexText
import Verif.Props.Amounts
import Verif.Props.Values
import Verif.Props.MinMax
import Verif.Props.RunwayState

/-!
C56: amounts of precipitation.
-/

set_option linter.unusedSectionVars false

namespace Metaf.Props

open Metaf.Spec

variable [FloatSem]

/-! ### How amounts of precipitation are written in remarks -/

/-- Frozen precipitation is that of the last 6 hours at the main synoptic hours, that of the last 3
hours at the hours halfway between them; reports may be released in the hour before. -/
def frozenType (hour : Option Nat) : PrecipitationType :=
  match hour with
  | none => .FROZEN_PRECIP_3_OR_6_HOURLY
  | some h =>
    if h < 24 ∧ (h % 6 = 0 ∨ h % 6 = 5) then .FROZEN_PRECIP_6_HOURLY
    else if h < 24 ∧ (h % 6 = 2 ∨ h % 6 = 3) then .FROZEN_PRECIP_3_HOURLY
    else .FROZEN_PRECIP_3_OR_6_HOURLY

/-- Amounts in remarks: the code, the number of digits after it, what is measured, the unit and the
fraction of the unit which the last digit means. -/
def amountTable (hour : Option Nat) : List (Str × Nat × PrecipitationType × PrecipitationUnit × Nat) :=
  [(c!"P", 4, .TOTAL_PRECIPITATION_HOURLY, .INCHES, 100),
   (c!"6", 4, frozenType hour, .INCHES, 100),
   (c!"7", 4, .FROZEN_PRECIP_24_HOURLY, .INCHES, 100),
   (c!"4/", 3, .SNOW_DEPTH_ON_GROUND, .INCHES, 1),
   (c!"931", 3, .SNOW_6_HOURLY, .INCHES, 10),
   (c!"933", 3, .WATER_EQUIV_OF_SNOW_ON_GROUND, .INCHES, 10),
   (c!"I1", 3, .ICE_ACCRETION_FOR_LAST_HOUR, .INCHES, 100),
   (c!"I3", 3, .ICE_ACCRETION_FOR_LAST_3_HOURS, .INCHES, 100),
   (c!"I6", 3, .ICE_ACCRETION_FOR_LAST_6_HOURS, .INCHES, 100),
   (c!"PP", 3, .PRECIPITATION_ACCUMULATION_SINCE_LAST_REPORT, .MM, 10)]

/-- The number held for `n` written in units of the fraction `scale`. -/
def amountOf (scale n : Nat) : Rat := f32 (n * (if scale = 1 then 1 else f32 (f64 (1 / scale))))

/-- The digits of an amount and the amount. -/
def AmountWritten (k scale : Nat) (unit : PrecipitationUnit) (s : Str) (p : Precipitation) : Prop :=
  (s = List.replicate k '/' ∧ p = ⟨none, unit⟩) ∨
  ∃ n, n < 10 ^ k ∧ s = decimal k n ∧ p = ⟨some (amountOf scale n), unit⟩

/-! ### The regular expression of remarks -/

/-- Codes followed by four digits and codes followed by three digits. -/
def codes4 : List Str := [c!"P", c!"6", c!"7"]
def codes3 : List Str := [c!"4/", c!"931", c!"933", c!"I1", c!"I3", c!"I6", c!"PP"]

/-- `k` digits or slashes. -/
def Digits (k : Nat) (s : Str) : Prop := s = List.replicate k '/' ∨ ∃ n < 10 ^ k, s = decimal k n

theorem digits_length {k : Nat} {s : Str} (h : Digits k s) : s.length = k := by
  rcases h with rfl | ⟨n, -, rfl⟩
  · simp
  · exact decimal_length k n

/-- Forms: whether four digits follow, the code and the digits. -/
def AmountOk (f : Bool × Str × Str) : Prop :=
  (f.1 = true ∧ f.2.1 ∈ codes4 ∧ Digits 4 f.2.2) ∨ (f.1 = false ∧ f.2.1 ∈ codes3 ∧ Digits 3 f.2.2)

def amountCaps (f : Bool × Str × Str) : Caps :=
  if f.1 then [(2, f.2.2), (1, f.2.1)] else [(4, f.2.2), (3, f.2.1)]

theorem match_remarkAmount (s : Str) (c : Caps) : PrecipitationGroup.rgx.Match s c ↔
    ∃ f, AmountOk f ∧ s = f.2.1 ++ f.2.2 ∧ c = amountCaps f := by
  have m4 : ∀ {w : Str} {c : Caps}, Rx.Match ((.d ⬝ .d ⬝ .d ⬝ .d) ∥ .lit c!"////") w c ↔ c = [] ∧ Digits 4 w := by
    intro w c
    rw [Rx.match_alt, Rx.match_digits4, Rx.match_lit]
    constructor
    · rintro (⟨rfl, h⟩ | ⟨rfl, rfl⟩)
      · exact ⟨rfl, Or.inr h⟩
      · exact ⟨rfl, Or.inl rfl⟩
    · rintro ⟨rfl, rfl | h⟩
      · exact Or.inr ⟨rfl, rfl⟩
      · exact Or.inl ⟨rfl, h⟩
  have m3 : ∀ {w : Str} {c : Caps}, Rx.Match ((.d ⬝ .d ⬝ .d) ∥ .lit c!"///") w c ↔ c = [] ∧ Digits 3 w := by
    intro w c
    rw [Rx.match_alt, Rx.match_digits3, Rx.match_lit]
    constructor
    · rintro (⟨rfl, h⟩ | ⟨rfl, rfl⟩)
      · exact ⟨rfl, Or.inr h⟩
      · exact ⟨rfl, Or.inl rfl⟩
    · rintro ⟨rfl, rfl | h⟩
      · exact Or.inr ⟨rfl, rfl⟩
      · exact Or.inl ⟨rfl, h⟩
  have k4 : ∀ {w : Str} {c : Caps}, Rx.Match (.oneOf c!"P67") w c ↔ c = [] ∧ w ∈ codes4 := by
    intro w c
    simp only [Rx.match_oneOf, codes4, List.mem_cons, List.not_mem_nil, or_false]
    constructor
    · rintro ⟨x, rfl | rfl | rfl, rfl, rfl⟩ <;> simp
    · rintro ⟨rfl, rfl | rfl | rfl⟩ <;> exact ⟨_, by simp, rfl, rfl⟩
  have k3 : ∀ {w : Str} {c : Caps}, Rx.Match (.lit c!"4/" ∥ (.chr '9' ⬝ .chr '3' ⬝ .oneOf c!"13") ∥
      (.chr 'I' ⬝ .oneOf c!"136") ∥ .lit c!"PP") w c ↔ c = [] ∧ w ∈ codes3 := by
    intro w c
    simp only [Rx.match_alt, Rx.match_lit, Rx.match_seq, Rx.match_chr, Rx.match_oneOf, codes3,
      List.mem_cons, List.not_mem_nil, or_false]
    constructor
    · rintro (⟨rfl, rfl⟩ | ⟨_, _, _, _, ⟨rfl, rfl⟩, ⟨_, _, _, _, ⟨rfl, rfl⟩, ⟨x, rfl | rfl, rfl, rfl⟩, rfl, rfl⟩, rfl, rfl⟩ |
        ⟨_, _, _, _, ⟨rfl, rfl⟩, ⟨x, rfl | rfl | rfl, rfl, rfl⟩, rfl, rfl⟩ | ⟨rfl, rfl⟩) <;> simp
    · rintro ⟨rfl, rfl | rfl | rfl | rfl | rfl | rfl | rfl⟩
      · exact Or.inl ⟨rfl, rfl⟩
      · exact Or.inr (Or.inl ⟨_, _, [], [], ⟨rfl, rfl⟩, ⟨_, _, [], [], ⟨rfl, rfl⟩, ⟨'1', by simp, rfl, rfl⟩, rfl, rfl⟩, rfl, rfl⟩)
      · exact Or.inr (Or.inl ⟨_, _, [], [], ⟨rfl, rfl⟩, ⟨_, _, [], [], ⟨rfl, rfl⟩, ⟨'3', by simp, rfl, rfl⟩, rfl, rfl⟩, rfl, rfl⟩)
      · exact Or.inr (Or.inr (Or.inl ⟨_, _, [], [], ⟨rfl, rfl⟩, ⟨'1', by simp, rfl, rfl⟩, rfl, rfl⟩))
      · exact Or.inr (Or.inr (Or.inl ⟨_, _, [], [], ⟨rfl, rfl⟩, ⟨'3', by simp, rfl, rfl⟩, rfl, rfl⟩))
      · exact Or.inr (Or.inr (Or.inl ⟨_, _, [], [], ⟨rfl, rfl⟩, ⟨'6', by simp, rfl, rfl⟩, rfl, rfl⟩))
      · exact Or.inr (Or.inr (Or.inr ⟨rfl, rfl⟩))
  rw [PrecipitationGroup.rgx, Rx.match_alt]
  simp only [Rx.match_seq (a := .cap _ _), Rx.match_cap, ↓m4, ↓m3, ↓k4, ↓k3]
  constructor
  · rintro (⟨_, _, _, _, ⟨_, ⟨rfl, hk⟩, rfl⟩, ⟨_, ⟨rfl, hd⟩, rfl⟩, rfl, rfl⟩ |
      ⟨_, _, _, _, ⟨_, ⟨rfl, hk⟩, rfl⟩, ⟨_, ⟨rfl, hd⟩, rfl⟩, rfl, rfl⟩)
    · exact ⟨(true, _, _), Or.inl ⟨rfl, hk, hd⟩, rfl, rfl⟩
    · exact ⟨(false, _, _), Or.inr ⟨rfl, hk, hd⟩, rfl, rfl⟩
  · rintro ⟨⟨b, k, v⟩, ⟨hb, hk, hd⟩ | ⟨hb, hk, hd⟩, rfl, rfl⟩
    · simp only at hb
      subst hb
      exact Or.inl ⟨_, _, _, _, ⟨_, ⟨rfl, hk⟩, rfl⟩, ⟨_, ⟨rfl, hd⟩, rfl⟩, rfl, rfl⟩
    · simp only at hb
      subst hb
      exact Or.inr ⟨_, _, _, _, ⟨_, ⟨rfl, hk⟩, rfl⟩, ⟨_, ⟨rfl, hd⟩, rfl⟩, rfl, rfl⟩

theorem amount_mixed {k v k' v' : Str} (hk : k ∈ codes4) (hv : Digits 4 v) (hk' : k' ∈ codes3) :
    k ++ v ≠ k' ++ v' := by
  have hP : ∀ r, v ≠ 'P' :: r := by
    rintro r rfl
    rcases hv with e | ⟨n, -, e⟩
    · simp [List.replicate] at e
    · simp [decimal] at e
  simp only [codes4, codes3, List.mem_cons, List.not_mem_nil, or_false] at hk hk'
  intro e
  rcases hk with rfl | rfl | rfl <;> rcases hk' with rfl | rfl | rfl | rfl | rfl | rfl | rfl <;>
    simp at e
  exact hP _ e

theorem remarkAmount_inj (f f' : Bool × Str × Str) (h : AmountOk f) (h' : AmountOk f')
    (e : f.2.1 ++ f.2.2 = f'.2.1 ++ f'.2.2) : f = f' := by
  obtain ⟨b, k, v⟩ := f
  obtain ⟨b', k', v'⟩ := f'
  simp only at e
  rcases h with ⟨hb, hk, hd⟩ | ⟨hb, hk, hd⟩ <;> rcases h' with ⟨hb', hk', hd'⟩ | ⟨hb', hk', hd'⟩ <;>
    simp only at hb hb' hk hk' hd hd' <;> subst hb hb'
  · obtain ⟨rfl, rfl⟩ := List.append_inj' e (by rw [digits_length hd, digits_length hd'])
    rfl
  · exact absurd e (amount_mixed hk hd hk')
  · exact absurd e.symm (amount_mixed hk' hd' hk)
  · obtain ⟨rfl, rfl⟩ := List.append_inj' e (by rw [digits_length hd, digits_length hd'])
    rfl

theorem remarkAmount_iff (k scale : Nat) (hk : k = 3 ∨ k = 4) (unit : PrecipitationUnit) (s : Str)
    (p : Precipitation) (hs : Digits k s) (factor : Rat)
    (hf : factor = if scale = 1 then 1 else f32 (f64 (1 / scale))) :
    Precipitation.fromRemarkString s factor unit true = some p ↔ AmountWritten k scale unit s p := by
  rw [C37_remark, AmountWritten]
  have hl := digits_length hs
  constructor
  · rintro (⟨-, rfl | rfl, rfl⟩ | ⟨k', n, hk', hn, rfl, rfl⟩)
    · simp at hl; subst hl; exact Or.inl ⟨rfl, rfl⟩
    · simp at hl; subst hl; exact Or.inl ⟨rfl, rfl⟩
    · rw [decimal_length] at hl
      subst hl
      exact Or.inr ⟨n, hn, rfl, by rw [amountOf, hf]⟩
  · rintro (⟨rfl, rfl⟩ | ⟨n, hn, rfl, rfl⟩)
    · rcases hk with rfl | rfl
      · exact Or.inl ⟨rfl, Or.inl rfl, rfl⟩
      · exact Or.inl ⟨rfl, Or.inr rfl, rfl⟩
    · exact Or.inr ⟨k, n, hk, hn, rfl, by rw [amountOf, hf]⟩

/-- The hour of the report. -/
def reportHour (md : ReportMetadata) : Option Nat := md.reportTime.map (·.hourValue)

theorem frozen_eq (md : ReportMetadata) :
    PrecipitationGroup.typeFromString c!"6" md.reportTime = frozenType (reportHour md) := by
  cases h : md.reportTime with
  | none => simp [reportHour, h, frozenType, PrecipitationGroup.typeFromString]
  | some t =>
    simp only [reportHour, h, Option.map_some, frozenType]
    have h6 : t.is6hourlyReportTime = true ↔ t.hourValue < 24 ∧ (t.hourValue % 6 = 0 ∨ t.hourValue % 6 = 5) := by
      simp only [MetafTime.is6hourlyReportTime, List.contains_eq_mem, List.mem_cons, List.not_mem_nil,
        or_false, decide_eq_true_eq]
      omega
    have h3 : t.is3hourlyReportTime = true ↔ t.hourValue < 24 ∧ (t.hourValue % 6 = 2 ∨ t.hourValue % 6 = 3) := by
      simp only [MetafTime.is3hourlyReportTime, List.contains_eq_mem, List.mem_cons, List.not_mem_nil,
        or_false, decide_eq_true_eq]
      omega
    simp only [← h6, ← h3]
    rfl

/-- Every code has exactly one row in the table. -/
theorem amountTable_code (hour : Option Nat) (code : Str) :
    (code ∈ codes4 ↔ ∃ t u s, (code, 4, t, u, s) ∈ amountTable hour) ∧
    (code ∈ codes3 ↔ ∃ t u s, (code, 3, t, u, s) ∈ amountTable hour) := by
  constructor
  · simp only [codes4, amountTable, List.mem_cons, List.not_mem_nil, or_false, Prod.mk.injEq]
    constructor
    · rintro (rfl | rfl | rfl) <;> simp
    · rintro ⟨t, u, s, h⟩
      rcases h with h | h | h | h | h | h | h | h | h | h <;> obtain ⟨rfl, h, -⟩ := h <;> simp at h ⊢
  · simp only [codes3, amountTable, List.mem_cons, List.not_mem_nil, or_false, Prod.mk.injEq]
    constructor
    · rintro (rfl | rfl | rfl | rfl | rfl | rfl | rfl) <;> simp
    · rintro ⟨t, u, s, h⟩
      rcases h with h | h | h | h | h | h | h | h | h | h <;> obtain ⟨rfl, h, -⟩ := h <;> simp at h ⊢

/-- One row of the table as the model computes it. -/
theorem amountTable_row (md : ReportMetadata) (code : Str) (k scale : Nat) (t : PrecipitationType)
    (u : PrecipitationUnit) (h : (code, k, t, u, scale) ∈ amountTable (reportHour md)) :
    PrecipitationGroup.typeFromString code md.reportTime = t ∧
    PrecipitationGroup.unitFromType t = u ∧
    PrecipitationGroup.factorFromType t = (if scale = 1 then 1 else f32 (f64 (1 / scale))) ∧
    (k = 4 ∧ code ∈ codes4 ∨ k = 3 ∧ code ∈ codes3) := by
  have hfrozen : PrecipitationGroup.unitFromType (frozenType (reportHour md)) = .INCHES ∧
      PrecipitationGroup.factorFromType (frozenType (reportHour md)) = f32 (f64 (1 / 100)) := by
    unfold frozenType
    split
    · exact ⟨rfl, rfl⟩
    · split
      · exact ⟨rfl, rfl⟩
      · split <;> exact ⟨rfl, rfl⟩
  simp only [amountTable, List.mem_cons, List.not_mem_nil, or_false, Prod.mk.injEq] at h
  rcases h with h | h | h | h | h | h | h | h | h | h <;> obtain ⟨rfl, rfl, rfl, rfl, rfl⟩ := h
  · refine ⟨rfl, rfl, ?_, Or.inl ⟨rfl, by decide⟩⟩; simp [PrecipitationGroup.factorFromType]
  · refine ⟨frozen_eq md, hfrozen.1, ?_, Or.inl ⟨rfl, by decide⟩⟩; rw [hfrozen.2]; simp
  · refine ⟨rfl, rfl, ?_, Or.inl ⟨rfl, by decide⟩⟩; simp [PrecipitationGroup.factorFromType]
  · refine ⟨rfl, rfl, ?_, Or.inr ⟨rfl, by decide⟩⟩; simp [PrecipitationGroup.factorFromType]
  · refine ⟨rfl, rfl, ?_, Or.inr ⟨rfl, by decide⟩⟩; simp [PrecipitationGroup.factorFromType]
  · refine ⟨rfl, rfl, ?_, Or.inr ⟨rfl, by decide⟩⟩; simp [PrecipitationGroup.factorFromType]
  · refine ⟨rfl, rfl, ?_, Or.inr ⟨rfl, by decide⟩⟩; simp [PrecipitationGroup.factorFromType]
  · refine ⟨rfl, rfl, ?_, Or.inr ⟨rfl, by decide⟩⟩; simp [PrecipitationGroup.factorFromType]
  · refine ⟨rfl, rfl, ?_, Or.inr ⟨rfl, by decide⟩⟩; simp [PrecipitationGroup.factorFromType]
  · refine ⟨rfl, rfl, ?_, Or.inr ⟨rfl, by decide⟩⟩; simp [PrecipitationGroup.factorFromType]

/-- Words about precipitation in remarks. -/
def precipitationWords : List (Str × PrecipitationType × Bool) :=
  [(c!"PNO", .PNO, false), (c!"FZRANO", .FZRANO, false), (c!"ICG", .ICG_MISG, true),
   (c!"PCPN", .PCPN_MISG, true), (c!"SNINCR", .SNOW_INCREASING_RAPIDLY, false)]

theorem remark_word (s : Str) (t : PrecipitationType) (b : Bool) (md : ReportMetadata)
    (h : (s, t, b) ∈ precipitationWords) :
    PrecipitationGroup.parse s .RMK md = some ⟨t, ⟨none, .MM⟩, ⟨none, .MM⟩, b⟩ := by
  simp only [precipitationWords, List.mem_cons, List.not_mem_nil, or_false, Prod.mk.injEq] at h
  rcases h with h | h | h | h | h <;> obtain ⟨rfl, rfl, rfl⟩ := h <;> rfl

theorem parse_amount (f : Bool × Str × Str) (hf : AmountOk f) (md : ReportMetadata) :
    PrecipitationGroup.parse (f.2.1 ++ f.2.2) .RMK md =
      match Precipitation.fromRemarkString f.2.2
        (PrecipitationGroup.factorFromType (PrecipitationGroup.typeFromString f.2.1 md.reportTime))
        (PrecipitationGroup.unitFromType (PrecipitationGroup.typeFromString f.2.1 md.reportTime)) true with
      | none => none
      | some p => some ⟨PrecipitationGroup.typeFromString f.2.1 md.reportTime, p, ⟨none, .MM⟩, false⟩ := by
  have hm := (regexMatch_form match_remarkAmount (fun f f' h h' e => by rw [remarkAmount_inj f f' h h' e])
    (f.2.1 ++ f.2.2) (amountCaps f)).mpr ⟨f, hf, rfl, rfl⟩
  have hc : (f.2.1 ∈ codes4 ∧ Digits 4 f.2.2) ∨ (f.2.1 ∈ codes3 ∧ Digits 3 f.2.2) := by
    rcases hf with ⟨-, h⟩ | ⟨-, h⟩
    · exact Or.inl h
    · exact Or.inr h
  have word : ∀ w ∈ [c!"PNO", c!"FZRANO", c!"ICG", c!"PCPN", c!"SNINCR"], f.2.1 ++ f.2.2 ≠ w := by
    intro w hw e
    have hlen : (f.2.1 ++ f.2.2).length = 5 ∨ ∃ r, f.2.1 ++ f.2.2 = '9' :: r := by
      rcases hc with ⟨hk, hd⟩ | ⟨hk, hd⟩
      · left
        simp only [codes4, List.mem_cons, List.not_mem_nil, or_false] at hk
        rw [List.length_append, digits_length hd]
        rcases hk with h | h | h <;> rw [h] <;> rfl
      · simp only [codes3, List.mem_cons, List.not_mem_nil, or_false] at hk
        rw [List.length_append, digits_length hd]
        rcases hk with h | h | h | h | h | h | h <;> rw [h] <;> simp
    rw [e] at hlen
    simp only [List.mem_cons, List.not_mem_nil, or_false] at hw
    rcases hw with rfl | rfl | rfl | rfl | rfl <;> simp at hlen
  simp only [PrecipitationGroup.parse]
  rw [if_neg (word _ (by simp)), if_neg (word _ (by simp)), if_neg (word _ (by simp)),
    if_neg (word _ (by simp)), if_neg (word _ (by simp)), hm]
  obtain ⟨b, k, v⟩ := f
  cases b
  · have e1 : (amountCaps (false, k, v)).str 1 = [] := rfl
    have e2 : (amountCaps (false, k, v)).str 2 = [] := rfl
    have e3 : (amountCaps (false, k, v)).str 3 = k := rfl
    have e4 : (amountCaps (false, k, v)).str 4 = v := rfl
    simp only [e1, e2, e3, e4, List.nil_append]
    rfl
  · have e1 : (amountCaps (true, k, v)).str 1 = k := rfl
    have e2 : (amountCaps (true, k, v)).str 2 = v := rfl
    have e3 : (amountCaps (true, k, v)).str 3 = [] := rfl
    have e4 : (amountCaps (true, k, v)).str 4 = [] := rfl
    simp only [e1, e2, e3, e4, List.append_nil]
    rfl

/-! ### The property -/

/-- C56: precipitation in remarks. The texts recognised are exactly the words of the list and the
codes of the table followed by their number of digits or slashes, and the group tells what is measured
with the amount written. What `6` measures depends on the hour of the report. -/
theorem C56_remark (s : Str) (md : ReportMetadata) (g : PrecipitationGroup) :
    PrecipitationGroup.parse s .RMK md = some g ↔
      (∃ t b, (s, t, b) ∈ precipitationWords ∧ g = ⟨t, ⟨none, .MM⟩, ⟨none, .MM⟩, b⟩) ∨
      ∃ code k t u scale v p, (code, k, t, u, scale) ∈ amountTable (reportHour md) ∧
        AmountWritten k scale u v p ∧ s = code ++ v ∧ g = ⟨t, p, ⟨none, .MM⟩, false⟩ := by
  have digitsOf : ∀ {k scale u v p}, AmountWritten k scale u v p → Digits k v := by
    rintro k scale u v p (⟨rfl, -⟩ | ⟨n, hn, rfl, -⟩)
    · exact Or.inl rfl
    · exact Or.inr ⟨n, hn, rfl⟩
  constructor
  · intro h
    by_cases hw : ∃ t b, (s, t, b) ∈ precipitationWords
    · obtain ⟨t, b, hw⟩ := hw
      rw [remark_word s t b md hw] at h
      exact Or.inl ⟨t, b, hw, (Option.some.inj h).symm⟩
    · right
      cases hm : regexMatch PrecipitationGroup.rgx s with
      | none =>
        have ne : ∀ w t b, (w, t, b) ∈ precipitationWords → s ≠ w := by
          rintro w t b hin rfl
          exact hw ⟨t, b, hin⟩
        simp only [PrecipitationGroup.parse] at h
        rw [if_neg (ne _ .PNO false (by decide)), if_neg (ne _ .FZRANO false (by decide)),
          if_neg (ne _ .ICG_MISG true (by decide)), if_neg (ne _ .PCPN_MISG true (by decide)),
          if_neg (ne _ .SNOW_INCREASING_RAPIDLY false (by decide)), hm] at h
        cases h
      | some m =>
        obtain ⟨f, hf, rfl, rfl⟩ := (regexMatch_form match_remarkAmount
          (fun f f' h h' e => by rw [remarkAmount_inj f f' h h' e]) s m).mp hm
        rw [parse_amount f hf] at h
        have hrow : ∃ k t u scale, (f.2.1, k, t, u, scale) ∈ amountTable (reportHour md) ∧ Digits k f.2.2 ∧
            (k = 3 ∨ k = 4) := by
          rcases hf with ⟨-, hk, hd⟩ | ⟨-, hk, hd⟩
          · obtain ⟨t, u, scale, hr⟩ := (amountTable_code (reportHour md) f.2.1).1.mp hk
            exact ⟨4, t, u, scale, hr, hd, Or.inr rfl⟩
          · obtain ⟨t, u, scale, hr⟩ := (amountTable_code (reportHour md) f.2.1).2.mp hk
            exact ⟨3, t, u, scale, hr, hd, Or.inl rfl⟩
        obtain ⟨k, t, u, scale, hr, hd, hk⟩ := hrow
        obtain ⟨ht, hu, hfac, -⟩ := amountTable_row md f.2.1 k scale t u hr
        rw [ht, hu] at h
        cases hp : Precipitation.fromRemarkString f.2.2 (PrecipitationGroup.factorFromType t) u true with
        | none => rw [hp] at h; cases h
        | some p =>
          rw [hp] at h
          exact ⟨f.2.1, k, t, u, scale, f.2.2, p, hr, (remarkAmount_iff k scale hk u f.2.2 p hd _ hfac).mp hp, rfl,
            (Option.some.inj h).symm⟩
  · rintro (⟨t, b, hw, rfl⟩ | ⟨code, k, t, u, scale, v, p, hr, ha, rfl, rfl⟩)
    · exact remark_word s t b md hw
    · obtain ⟨ht, hu, hfac, hk⟩ := amountTable_row md code k scale t u hr
      have hd := digitsOf ha
      have hk34 : k = 3 ∨ k = 4 := by omega
      have hp := (remarkAmount_iff k scale hk34 u v p hd _ hfac).mpr ha
      rcases hk with ⟨rfl, hk⟩ | ⟨rfl, hk⟩
      · have := parse_amount (true, code, v) (Or.inl ⟨rfl, hk, hd⟩) md
        simp only [ht, hu, hp] at this
        exact this
      · have := parse_amount (false, code, v) (Or.inr ⟨rfl, hk, hd⟩) md
        simp only [ht, hu, hp] at this
        exact this

/-- C56: the number held is the number written in its unit, whatever the rounding: it differs by less
than a thousandth, and rounding gives the digits back. -/
theorem C56_amount (hour : Option Nat) (code : Str) (k scale n : Nat) (t : PrecipitationType)
    (u : PrecipitationUnit) (h : (code, k, t, u, scale) ∈ amountTable hour) (hn : n < 10 ^ k) :
    |amountOf scale n - n / scale| ≤ 1 / 1000 ∧ roundHalfAway (amountOf scale n * scale) = n := by
  have hs : (scale = 100 ∨ scale = 10 ∨ scale = 1) ∧ (k = 3 ∨ k = 4) := by
    simp only [amountTable, List.mem_cons, List.not_mem_nil, or_false, Prod.mk.injEq] at h
    omega
  have hn4 : n < 10000 := by
    rcases hs.2 with rfl | rfl <;> omega
  rcases hs.1 with rfl | rfl | rfl
  · have := C37_remark_value .TOTAL_PRECIPITATION_HOURLY n hn4
    simpa [amountOf, PrecipitationGroup.factorFromType, remarkScale] using this
  · have := C37_remark_value .SNOW_6_HOURLY n hn4
    simpa [amountOf, PrecipitationGroup.factorFromType, remarkScale] using this
  · have := C37_remark_value .SNOW_DEPTH_ON_GROUND n hn4
    simpa [amountOf, PrecipitationGroup.factorFromType, remarkScale] using this

/-! ### Rainfall in the body of the report -/

/-- Rainfall with `k` digits before the point. -/
def RainWritten (k : Nat) (s : Str) (p : Precipitation) : Prop :=
  (s = List.replicate k '/' ++ c!"./" ∧ p = ⟨none, .MM⟩) ∨
  ∃ a f, a < 10 ^ k ∧ f < 10 ∧ s = decimal k a ++ '.' :: decimal 1 f ∧ p = ⟨some (rainOf a f), .MM⟩

/-- The text of rainfall with `k` digits before the point. -/
def RainText (k : Nat) (s : Str) : Prop :=
  s = List.replicate k '/' ++ c!"./" ∨ ∃ a f, a < 10 ^ k ∧ f < 10 ∧ s = decimal k a ++ '.' :: decimal 1 f

theorem rain_length {k : Nat} {s : Str} (h : RainText k s) : s.length = k + 2 := by
  rcases h with rfl | ⟨a, f, -, -, rfl⟩ <;> simp [decimal_length]

theorem match_assoc {a b c : Rx} {w : Str} {k : Caps} :
    Rx.Match (a ⬝ b ⬝ c) w k ↔ Rx.Match ((a ⬝ b) ⬝ c) w k := by
  simp only [Rx.match_seq]
  constructor
  · rintro ⟨u, _, ca, _, ha, ⟨v, x, cb, cc, hb, hc, rfl, rfl⟩, rfl, rfl⟩
    exact ⟨u ++ v, x, _, _, ⟨u, v, ca, cb, ha, hb, rfl, rfl⟩, hc, by simp, by simp⟩
  · rintro ⟨_, x, _, cc, ⟨u, v, ca, cb, ha, hb, rfl, rfl⟩, hc, rfl, rfl⟩
    exact ⟨u, v ++ x, ca, _, ha, ⟨v, x, cb, cc, hb, hc, rfl, rfl⟩, by simp, by simp⟩

theorem match_point {w : Str} {c : Caps} : Rx.Match (.chr '.' ⬝ .d) w c ↔
    c = [] ∧ ∃ f < 10, w = '.' :: decimal 1 f := by
  rw [Rx.match_seq]
  simp only [Rx.match_chr, Rx.match_digits1]
  constructor
  · rintro ⟨_, _, _, _, ⟨rfl, rfl⟩, ⟨rfl, f, hf, rfl⟩, rfl, rfl⟩
    exact ⟨rfl, f, hf, rfl⟩
  · rintro ⟨rfl, f, hf, rfl⟩
    exact ⟨_, _, [], [], ⟨rfl, rfl⟩, ⟨rfl, f, hf, rfl⟩, rfl, rfl⟩

theorem match_rain_number {r : Rx} {k : Nat}
    (hr : ∀ {w : Str} {c : Caps}, r.Match w c ↔ c = [] ∧ ∃ n < 10 ^ k, w = decimal k n) {w : Str} {c : Caps} :
    Rx.Match ((r ⬝ .chr '.' ⬝ .d) ∥ .lit (List.replicate k '/' ++ c!"./")) w c ↔ c = [] ∧ RainText k w := by
  rw [Rx.match_alt, Rx.match_lit, Rx.match_seq]
  simp only [hr, match_point]
  constructor
  · rintro (⟨_, _, _, _, ⟨rfl, a, ha, rfl⟩, ⟨rfl, f, hf, rfl⟩, rfl, rfl⟩ | ⟨rfl, rfl⟩)
    · exact ⟨rfl, Or.inr ⟨a, f, ha, hf, rfl⟩⟩
    · exact ⟨rfl, Or.inl rfl⟩
  · rintro ⟨rfl, rfl | ⟨a, f, ha, hf, rfl⟩⟩
    · exact Or.inr ⟨rfl, rfl⟩
    · exact Or.inl ⟨_, _, [], [], ⟨rfl, a, ha, rfl⟩, ⟨rfl, f, hf, rfl⟩, rfl, rfl⟩

theorem match_rain (s : Str) (c : Caps) : PrecipitationGroup.rfRgx.Match s c ↔
    ∃ f : Str × Str, (RainText 2 f.1 ∧ RainText 3 f.2) ∧ s = c!"RF" ++ f.1 ++ c!"/" ++ f.2 ∧
      c = [(2, f.2), (1, f.1)] := by
  have r2 : ∀ {w : Str} {c : Caps}, Rx.Match ((.d ⬝ .d ⬝ .chr '.' ⬝ .d) ∥ .lit c!"//./") w c ↔
      c = [] ∧ RainText 2 w := by
    intro w c
    rw [← match_rain_number (r := .d ⬝ .d) Rx.match_digits2, Rx.match_alt, Rx.match_alt, match_assoc]
    rfl
  have r3 : ∀ {w : Str} {c : Caps}, Rx.Match ((.d ⬝ .d ⬝ .d ⬝ .chr '.' ⬝ .d) ∥ .lit c!"///./") w c ↔
      c = [] ∧ RainText 3 w := by
    intro w c
    have e : Rx.Match (.d ⬝ .d ⬝ .d ⬝ .chr '.' ⬝ .d) w c ↔ Rx.Match ((.d ⬝ .d ⬝ .d) ⬝ .chr '.' ⬝ .d) w c := by
      have e1 : ∀ w c, Rx.Match (.d ⬝ .d ⬝ .chr '.' ⬝ .d) w c ↔ Rx.Match ((.d ⬝ .d) ⬝ .chr '.' ⬝ .d) w c :=
        fun w c => match_assoc
      rw [Rx.match_seq]
      simp only [e1]
      rw [← Rx.match_seq, match_assoc]
    rw [← match_rain_number (r := .d ⬝ .d ⬝ .d) Rx.match_digits3, Rx.match_alt, Rx.match_alt, e]
    rfl
  rw [PrecipitationGroup.rfRgx]
  simp only [Rx.match_seq (a := .lit _), Rx.match_seq (a := .cap _ _), Rx.match_seq (a := .chr '/'),
    Rx.match_cap, ↓r2, ↓r3, ↓Rx.match_lit, Rx.match_chr]
  constructor
  · rintro ⟨_, _, _, _, ⟨rfl, rfl⟩, ⟨_, _, _, _, ⟨_, ⟨rfl, h2⟩, rfl⟩, ⟨_, _, _, _, ⟨rfl, rfl⟩,
      ⟨_, ⟨rfl, h3⟩, rfl⟩, rfl, rfl⟩, rfl, rfl⟩, rfl, rfl⟩
    exact ⟨(_, _), ⟨h2, h3⟩, by simp, rfl⟩
  · rintro ⟨⟨a, b⟩, ⟨h2, h3⟩, rfl, rfl⟩
    exact ⟨_, _, _, _, ⟨rfl, rfl⟩, ⟨a, _, _, _, ⟨_, ⟨rfl, h2⟩, rfl⟩, ⟨_, b, _, _, ⟨rfl, rfl⟩,
      ⟨_, ⟨rfl, h3⟩, rfl⟩, rfl, rfl⟩, rfl, rfl⟩, by simp, rfl⟩

theorem rain_iff (k : Nat) (hk : k = 2 ∨ k = 3) (s : Str) (p : Precipitation) (hs : RainText k s) :
    Precipitation.fromRainfallString s = some p ↔ RainWritten k s p := by
  rw [C37_rainfall, RainWritten]
  have hl := rain_length hs
  constructor
  · rintro (⟨rfl | rfl, rfl⟩ | ⟨k', a, f, hk', ha, hf, rfl, rfl⟩)
    · obtain rfl : k = 3 := by simp at hl; omega
      exact Or.inl ⟨rfl, rfl⟩
    · obtain rfl : k = 2 := by simp at hl; omega
      exact Or.inl ⟨rfl, rfl⟩
    · simp [decimal_length] at hl
      subst hl
      exact Or.inr ⟨a, f, ha, hf, rfl, rfl⟩
  · rintro (⟨rfl, rfl⟩ | ⟨a, f, ha, hf, rfl, rfl⟩)
    · rcases hk with rfl | rfl
      · exact Or.inl ⟨Or.inr rfl, rfl⟩
      · exact Or.inl ⟨Or.inl rfl, rfl⟩
    · exact Or.inr ⟨k, a, f, hk, ha, hf, rfl, rfl⟩

/-- C56: rainfall in the body of a weather report: `RF`, the rain of the last ten minutes, a slash and
the rain since 9 in the morning. -/
theorem C56_rainfall (s : Str) (md : ReportMetadata) (g : PrecipitationGroup) :
    PrecipitationGroup.parse s .METAR md = some g ↔
      ∃ a b recent total, s = c!"RF" ++ a ++ c!"/" ++ b ∧ RainWritten 2 a recent ∧ RainWritten 3 b total ∧
        g = ⟨.RAINFALL_9AM_10MIN, total, recent, false⟩ := by
  have hr := regexMatch_form match_rain (by
    rintro ⟨a, b⟩ ⟨a', b'⟩ h h' e
    have l := rain_length h.1
    have l' := rain_length h'.1
    simp only [List.append_assoc, List.cons_append, List.nil_append, List.cons.injEq, true_and] at e
    obtain ⟨rfl, e⟩ := List.append_inj e (by simp only at l l'; omega)
    obtain rfl : b = b' := by simpa using e
    rfl)
  have textOf : ∀ {k s p}, RainWritten k s p → RainText k s := by
    rintro k s p (⟨rfl, -⟩ | ⟨a, f, ha, hf, rfl, -⟩)
    · exact Or.inl rfl
    · exact Or.inr ⟨a, f, ha, hf, rfl⟩
  simp only [PrecipitationGroup.parse]
  constructor
  · intro h
    cases hm : regexMatch PrecipitationGroup.rfRgx s with
    | none => rw [hm] at h; cases h
    | some m =>
      obtain ⟨⟨a, b⟩, ⟨ha, hb⟩, rfl, rfl⟩ := (hr s m).mp hm
      rw [hm] at h
      have e1 : Caps.str [(2, b), (1, a)] 1 = a := rfl
      have e2 : Caps.str [(2, b), (1, a)] 2 = b := rfl
      simp only [e1, e2] at h
      cases h1 : Precipitation.fromRainfallString a with
      | none => rw [h1] at h; cases h
      | some p =>
        cases h2 : Precipitation.fromRainfallString b with
        | none => rw [h1, h2] at h; cases h
        | some q =>
          rw [h1, h2] at h
          exact ⟨a, b, p, q, rfl, (rain_iff 2 (Or.inl rfl) a p ha).mp h1,
            (rain_iff 3 (Or.inr rfl) b q hb).mp h2, (Option.some.inj h).symm⟩
  · rintro ⟨a, b, p, q, rfl, ha, hb, rfl⟩
    rw [(hr _ _).mpr ⟨(a, b), ⟨textOf ha, textOf hb⟩, rfl, rfl⟩]
    have e1 : Caps.str [(2, b), (1, a)] 1 = a := rfl
    have e2 : Caps.str [(2, b), (1, a)] 2 = b := rfl
    simp only [e1, e2, (rain_iff 2 (Or.inl rfl) a p (textOf ha)).mpr ha,
      (rain_iff 3 (Or.inr rfl) b q (textOf hb)).mpr hb]

/-- C56: elsewhere precipitation is not looked for. -/
theorem C56_elsewhere (s : Str) (part : ReportPart) (md : ReportMetadata) (h1 : part ≠ .METAR)
    (h2 : part ≠ .RMK) : PrecipitationGroup.parse s part md = none := by
  cases part <;> simp_all [PrecipitationGroup.parse]

/-- Two numbers of inches: the increase in the last hour and the total depth. -/
def SnincrWritten (s : Str) (p q : Precipitation) : Prop :=
  ∃ i j a b : Nat, (i = 1 ∨ i = 2) ∧ (j = 1 ∨ j = 2) ∧ a < 10 ^ i ∧ b < 10 ^ j ∧
    s = decimal i a ++ '/' :: decimal j b ∧ p = ⟨some a, .INCHES⟩ ∧ q = ⟨some b, .INCHES⟩

/-- C56: what follows a group of precipitation. `SNINCR` takes one text with increase and depth; the
words which say that data are missing are completed by `MISG` and undone by anything else; any other
group takes nothing. -/
theorem C56_append (first s : Str) (part : ReportPart) (md : ReportMetadata) (g : PrecipitationGroup)
    (h : PrecipitationGroup.parse first part md = some g) :
    (g.precType = .SNOW_INCREASING_RAPIDLY →
      (∀ p q, SnincrWritten s p q →
        g.append s = (⟨.SNOW_INCREASING_RAPIDLY, q, p, false⟩, .APPENDED)) ∧
      ((∀ p q, ¬ SnincrWritten s p q) → g.append s = (g, .NOT_APPENDED))) ∧
    ((g.precType = .ICG_MISG ∨ g.precType = .PCPN_MISG) →
      (s = c!"MISG" → g.append s = (⟨g.precType, ⟨none, .MM⟩, ⟨none, .MM⟩, false⟩, .APPENDED)) ∧
      (s ≠ c!"MISG" → g.append s = (g, .GROUP_INVALIDATED))) ∧
    (g.precType ≠ .SNOW_INCREASING_RAPIDLY → g.precType ≠ .ICG_MISG → g.precType ≠ .PCPN_MISG →
      g.append s = (g, .NOT_APPENDED)) := by
  have key : (g.precType = .SNOW_INCREASING_RAPIDLY →
        g = ⟨.SNOW_INCREASING_RAPIDLY, ⟨none, .MM⟩, ⟨none, .MM⟩, false⟩) ∧
      (g.precType = .ICG_MISG → g = ⟨.ICG_MISG, ⟨none, .MM⟩, ⟨none, .MM⟩, true⟩) ∧
      (g.precType = .PCPN_MISG → g = ⟨.PCPN_MISG, ⟨none, .MM⟩, ⟨none, .MM⟩, true⟩) := by
    cases part with
    | METAR =>
      obtain ⟨a, b, p, q, -, -, -, rfl⟩ := (C56_rainfall _ _ _).mp h
      simp
    | RMK =>
      rcases (C56_remark _ _ _).mp h with ⟨t, b, hw, rfl⟩ | ⟨code, k, t, u, scale, v, p, hr, -, -, rfl⟩
      · simp only [precipitationWords, List.mem_cons, List.not_mem_nil, or_false, Prod.mk.injEq] at hw
        rcases hw with ⟨-, rfl, rfl⟩ | ⟨-, rfl, rfl⟩ | ⟨-, rfl, rfl⟩ | ⟨-, rfl, rfl⟩ | ⟨-, rfl, rfl⟩ <;> simp
      · have hft : ∀ o, frozenType o ≠ .SNOW_INCREASING_RAPIDLY ∧ frozenType o ≠ .ICG_MISG ∧
            frozenType o ≠ .PCPN_MISG := by
          intro o
          unfold frozenType
          split
          · decide
          · split
            · decide
            · split <;> decide
        simp only [amountTable, List.mem_cons, List.not_mem_nil, or_false, Prod.mk.injEq] at hr
        rcases hr with h | h | h | h | h | h | h | h | h | h <;> obtain ⟨-, -, rfl, -, -⟩ := h <;>
          simp [hft]
    | UNKNOWN => cases h
    | HEADER => cases h
    | TAF => cases h
  refine ⟨fun ht => ?_, fun ht => ?_, fun h1 h2 h3 => ?_⟩
  · rw [key.1 ht]
    have hs : ∀ p q, Precipitation.fromSnincrString s = some (p, q) ↔ SnincrWritten s p q := C37_snincr s
    constructor
    · intro p q hw
      rw [PrecipitationGroup.append, if_neg (by simp), if_neg (by simp),
        if_neg (by simp [Precipitation.isReported]), (hs p q).mpr hw]
    · intro hn
      rw [PrecipitationGroup.append, if_neg (by simp), if_neg (by simp),
        if_neg (by simp [Precipitation.isReported])]
      cases e : Precipitation.fromSnincrString s with
      | none => rfl
      | some x => exact absurd ((hs x.1 x.2).mp e) (hn _ _)
  · have hg : g.isIncomplete = true ∧ g.precAmount = ⟨none, .MM⟩ ∧ g.precChange = ⟨none, .MM⟩ := by
      rcases ht with h | h
      · rw [key.2.1 h]; simp
      · rw [key.2.2 h]; simp
    constructor
    · intro hs
      rw [PrecipitationGroup.append, if_pos ht.symm, if_neg (by simp [hg.1]), if_neg (by simp [hs])]
      obtain ⟨t, a, b, i⟩ := g
      simp only at hg
      simp [hg.2.1, hg.2.2]
    · intro hs
      rw [PrecipitationGroup.append, if_pos ht.symm, if_neg (by simp [hg.1]), if_pos hs]
  · rw [PrecipitationGroup.append, if_neg (by tauto), if_pos h1]

/-- C56: once the amounts have been taken, or `MISG` has followed, nothing more is taken. -/
theorem C56_append_once (first s s' : Str) (part : ReportPart) (md : ReportMetadata)
    (g g' : PrecipitationGroup) (h : PrecipitationGroup.parse first part md = some g)
    (h' : g.append s = (g', .APPENDED)) : g'.append s' = (g', .NOT_APPENDED) := by
  obtain ⟨h1, h2, h3⟩ := C56_append first s part md g h
  by_cases c1 : g.precType = .SNOW_INCREASING_RAPIDLY
  · by_cases hw : ∃ p q, SnincrWritten s p q
    · obtain ⟨p, q, hw⟩ := hw
      have e := (h1 c1).1 p q hw
      rw [h'] at e
      obtain rfl := (Prod.mk.inj e).1
      obtain ⟨i, j, a, b, -, -, -, -, -, rfl, rfl⟩ := hw
      rw [PrecipitationGroup.append, if_neg (by simp), if_neg (by simp),
        if_pos (by simp [Precipitation.isReported])]
    · have e := (h1 c1).2 (fun p q hc => hw ⟨p, q, hc⟩)
      rw [h'] at e
      cases (Prod.mk.inj e).2
  · by_cases c2 : g.precType = .ICG_MISG ∨ g.precType = .PCPN_MISG
    · by_cases hs : s = c!"MISG"
      · have e := (h2 c2).1 hs
        rw [h'] at e
        obtain rfl := (Prod.mk.inj e).1
        rw [PrecipitationGroup.append, if_pos c2.symm, if_pos (by simp)]
      · have e := (h2 c2).2 hs
        rw [h'] at e
        cases (Prod.mk.inj e).2
    · rw [not_or] at c2
      have e := h3 c1 c2.1 c2.2
      rw [h'] at e
      cases (Prod.mk.inj e).2

/-- C56: a group is valid exactly if it does not wait for `MISG`. -/
theorem C56_valid (s : Str) (part : ReportPart) (md : ReportMetadata) (g : PrecipitationGroup)
    (h : PrecipitationGroup.parse s part md = some g) :
    g.isValid = true ↔ s ≠ c!"ICG" ∧ s ≠ c!"PCPN" := by
  cases part with
  | METAR =>
    obtain ⟨a, b, p, q, rfl, -, -, rfl⟩ := (C56_rainfall _ _ _).mp h
    simp [PrecipitationGroup.isValid]
  | RMK =>
    rcases (C56_remark _ _ _).mp h with ⟨t, b, hw, rfl⟩ | ⟨code, k, t, u, scale, v, p, hr, hv, hs, rfl⟩
    · simp only [precipitationWords, List.mem_cons, List.not_mem_nil, or_false, Prod.mk.injEq] at hw
      rcases hw with ⟨rfl, rfl, rfl⟩ | ⟨rfl, rfl, rfl⟩ | ⟨rfl, rfl, rfl⟩ | ⟨rfl, rfl, rfl⟩ | ⟨rfl, rfl, rfl⟩ <;>
        simp [PrecipitationGroup.isValid]
    · have word : ∀ w, w = c!"ICG" ∨ w = c!"PCPN" → s ≠ w := by
        rintro w hw rfl
        rcases hw with rfl | rfl
        · rw [remark_word c!"ICG" .ICG_MISG true md (by decide)] at h
          simp at h
        · rw [remark_word c!"PCPN" .PCPN_MISG true md (by decide)] at h
          simp at h
      simp [PrecipitationGroup.isValid, word c!"ICG" (Or.inl rfl), word c!"PCPN" (Or.inr rfl)]
  | UNKNOWN => cases h
  | HEADER => cases h
  | TAF => cases h

example : ∃ g, PrecipitationGroup.parse c!"60217" .RMK { reportTime := some ⟨some 5, 11, 53⟩ } = some g ∧
    g.precType = .FROZEN_PRECIP_6_HOURLY :=
  ⟨_, (C56_remark _ _ _).mpr (Or.inr ⟨c!"6", 4, _, .INCHES, 100, c!"0217", _, by decide,
    Or.inr ⟨217, by decide, rfl, rfl⟩, rfl, rfl⟩), rfl⟩
example : ∃ g, PrecipitationGroup.parse c!"PP018" .RMK {} = some g :=
  ⟨_, (C56_remark _ _ _).mpr (Or.inr ⟨c!"PP", 3, .PRECIPITATION_ACCUMULATION_SINCE_LAST_REPORT, .MM, 10, c!"018", _, by decide,
    Or.inr ⟨18, by decide, rfl, rfl⟩, rfl, rfl⟩)⟩
example : ∃ g, PrecipitationGroup.parse c!"RF00.6/011.2" .METAR {} = some g :=
  ⟨_, (C56_rainfall _ _ _).mpr ⟨c!"00.6", c!"011.2", _, _, rfl, Or.inr ⟨0, 6, by decide, by decide, rfl, rfl⟩,
    Or.inr ⟨11, 2, by decide, by decide, rfl, rfl⟩, rfl⟩⟩
example : SnincrWritten c!"2/10" ⟨some 2, .INCHES⟩ ⟨some 10, .INCHES⟩ :=
  ⟨1, 2, 2, 10, by decide, by decide, by decide, by decide, rfl, by simp, by simp⟩

end Metaf.Props
