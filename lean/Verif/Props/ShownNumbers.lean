import Verif.Props.Exceptions

/-!
C104: exactly which numbers explain shows one too small, with the arithmetic of IEEE 754.
-/

namespace Metaf.Props

open Metaf Metaf.Spec Metaf.Explain

set_option Elab.async false

attribute [local instance] ieee

/-- A number of tenths, with one decimal. -/
def oneDecimal (k : Nat) : Str := showNat (k / 10) ++ c!"." ++ showNat (k % 10)

/-- A number of hundredths, with two decimals. -/
def twoDecimals (k : Nat) : Str := showNat (k / 100) ++ c!"." ++ decimal 2 (k % 100)

/-- The tenths of a degree of which one too few is shown. -/
def CutTenths (n : Nat) : Prop := (320 ≤ n ∧ n < 640 ∧ n % 5 = 3) ∨ (640 ≤ n ∧ n % 5 = 1)

instance (n : Nat) : Decidable (CutTenths n) := by unfold CutTenths; infer_instance

/-- The text begins with the given text. -/
def beginsWith (p s : Str) : Bool := p.isPrefixOf s

theorem beginsWith_iff {p s : Str} (h : beginsWith p s = true) : ∃ t, s = p ++ t := by
  obtain ⟨t, h⟩ := List.isPrefixOf_iff_prefix.mp h
  exact ⟨t, h.symm⟩

/-- The temperatures with `n` tenths of a degree are shown as said in C104. -/
def temperatures_shown_at (n : Nat) : Bool :=
  [false, true].all fun neg =>
    match Temperature.fromRemarkString ((if neg then '1' else '0') :: decimal 3 n) with
    | none => false
    | some x => beginsWith ((if neg ∧ n ≠ 0 then c!"-" else []) ++
        oneDecimal (if CutTenths n then n - 1 else n) ++ c!" &deg;C / ") (explainTemperature x)

set_option maxRecDepth 8000 in
theorem temperatures_shown_1 : ((List.range 200).all fun k => temperatures_shown_at (0 + k)) = true := by
  decide +kernel

set_option maxRecDepth 8000 in
theorem temperatures_shown_2 : ((List.range 200).all fun k => temperatures_shown_at (200 + k)) = true := by
  decide +kernel

set_option maxRecDepth 8000 in
theorem temperatures_shown_3 : ((List.range 200).all fun k => temperatures_shown_at (400 + k)) = true := by
  decide +kernel

set_option maxRecDepth 8000 in
theorem temperatures_shown_4 : ((List.range 200).all fun k => temperatures_shown_at (600 + k)) = true := by
  decide +kernel

set_option maxRecDepth 8000 in
theorem temperatures_shown_5 : ((List.range 200).all fun k => temperatures_shown_at (800 + k)) = true := by
  decide +kernel

theorem temperatures_shown {n : Nat} (hn : n < 1000) : temperatures_shown_at n = true := by
  rcases (by omega : (0 ≤ n ∧ n < 200) ∨ (200 ≤ n ∧ n < 400) ∨ (400 ≤ n ∧ n < 600) ∨ (600 ≤ n ∧ n < 800) ∨ (800 ≤ n ∧ n < 1000)) with
    ⟨h1, h2⟩ | ⟨h1, h2⟩ | ⟨h1, h2⟩ | ⟨h1, h2⟩ | ⟨h1, h2⟩
  · simpa only [Nat.add_sub_cancel' h1] using List.all_eq_true.mp temperatures_shown_1 (n - 0) (List.mem_range.mpr (by omega))
  · simpa only [Nat.add_sub_cancel' h1] using List.all_eq_true.mp temperatures_shown_2 (n - 200) (List.mem_range.mpr (by omega))
  · simpa only [Nat.add_sub_cancel' h1] using List.all_eq_true.mp temperatures_shown_3 (n - 400) (List.mem_range.mpr (by omega))
  · simpa only [Nat.add_sub_cancel' h1] using List.all_eq_true.mp temperatures_shown_4 (n - 600) (List.mem_range.mpr (by omega))
  · simpa only [Nat.add_sub_cancel' h1] using List.all_eq_true.mp temperatures_shown_5 (n - 800) (List.mem_range.mpr (by omega))

/-- C104. Exactly which temperatures with tenths of a degree, as in `T03231023`, are shown wrong: from 32 degrees on,
above or below zero, one in five, and these are one tenth nearer to zero. -/
theorem C104_temperature_exact (neg : Bool) {n : Nat} (hn : n < 1000) :
    ∃ x f, Temperature.fromRemarkString ((if neg then '1' else '0') :: decimal 3 n) = some x ∧
      explainTemperature x = (if neg ∧ n ≠ 0 then c!"-" else []) ++
        oneDecimal (if CutTenths n then n - 1 else n) ++ c!" &deg;C / " ++ f := by
  have h := List.all_eq_true.mp (temperatures_shown hn) neg (by cases neg <;> simp)
  split at h
  · cases h
  · next x hx =>
    obtain ⟨t, ht⟩ := beginsWith_iff h
    exact ⟨x, t, hx, ht⟩

/-- The last three digits of a pressure at sea level of which one too few is shown. -/
def CutSeaLevel (n : Nat) : Prop := n % 5 = 1 ∨ n % 5 = if 240 ≤ n ∧ n < 500 then 2 else 3

instance (n : Nat) : Decidable (CutSeaLevel n) := by unfold CutSeaLevel; infer_instance

/-- The pressure at sea level with the last digits `n` is shown as said in C104. -/
def seaLevel_shown_at (n : Nat) : Bool :=
  match Pressure.fromSlpString (c!"SLP" ++ decimal 3 n) with
  | none => false
  | some x => beginsWith (oneDecimal ((if n < 500 then 10000 + n else 9000 + n) - if CutSeaLevel n then 1 else 0) ++
      c!" hPa / ") (explainPressure x)

set_option maxRecDepth 8000 in
theorem seaLevel_shown_1 : ((List.range 250).all fun k => seaLevel_shown_at (0 + k)) = true := by
  decide +kernel

set_option maxRecDepth 8000 in
theorem seaLevel_shown_2 : ((List.range 250).all fun k => seaLevel_shown_at (250 + k)) = true := by
  decide +kernel

set_option maxRecDepth 8000 in
theorem seaLevel_shown_3 : ((List.range 250).all fun k => seaLevel_shown_at (500 + k)) = true := by
  decide +kernel

set_option maxRecDepth 8000 in
theorem seaLevel_shown_4 : ((List.range 250).all fun k => seaLevel_shown_at (750 + k)) = true := by
  decide +kernel

theorem seaLevel_shown {n : Nat} (hn : n < 1000) : seaLevel_shown_at n = true := by
  rcases (by omega : (0 ≤ n ∧ n < 250) ∨ (250 ≤ n ∧ n < 500) ∨ (500 ≤ n ∧ n < 750) ∨ (750 ≤ n ∧ n < 1000)) with
    ⟨h1, h2⟩ | ⟨h1, h2⟩ | ⟨h1, h2⟩ | ⟨h1, h2⟩
  · simpa only [Nat.add_sub_cancel' h1] using List.all_eq_true.mp seaLevel_shown_1 (n - 0) (List.mem_range.mpr (by omega))
  · simpa only [Nat.add_sub_cancel' h1] using List.all_eq_true.mp seaLevel_shown_2 (n - 250) (List.mem_range.mpr (by omega))
  · simpa only [Nat.add_sub_cancel' h1] using List.all_eq_true.mp seaLevel_shown_3 (n - 500) (List.mem_range.mpr (by omega))
  · simpa only [Nat.add_sub_cancel' h1] using List.all_eq_true.mp seaLevel_shown_4 (n - 750) (List.mem_range.mpr (by omega))

/-- C104. Exactly which pressures at sea level, as in `SLP123`, are shown wrong: two in five, and these are one tenth
too small. -/
theorem C104_sea_level_exact {n : Nat} (hn : n < 1000) :
    ∃ x f, Pressure.fromSlpString (c!"SLP" ++ decimal 3 n) = some x ∧
      explainPressure x = oneDecimal ((if n < 500 then 10000 + n else 9000 + n) - if CutSeaLevel n then 1 else 0) ++
        c!" hPa / " ++ f := by
  have h := seaLevel_shown hn
  unfold seaLevel_shown_at at h
  split at h
  · cases h
  · next x hx =>
    obtain ⟨t, ht⟩ := beginsWith_iff h
    exact ⟨x, t, hx, ht⟩

/-- The pressures from 25.50 to 32 inches of mercury, in hundredths, of which one too few is shown. -/
def CutInches (n : Nat) : Prop :=
  n % 25 ∈ [2, 3, 4, 5, 6, 10, 11, 12, 13, 14, 19, 20, 21, 22] ∨ (2900 ≤ n ∧ n % 25 = 18)

instance (n : Nat) : Decidable (CutInches n) := by unfold CutInches; infer_instance

/-- What is behind the first slash and a blank. -/
def afterSlash : Str → Str
  | [] => []
  | '/' :: ' ' :: s => s
  | _ :: s => afterSlash s

theorem afterSlash_suffix (s : Str) : ∃ a, s = a ++ afterSlash s := by
  induction s using afterSlash.induct with
  | case1 => exact ⟨[], rfl⟩
  | case2 s => exact ⟨['/', ' '], rfl⟩
  | case3 c s h ih =>
    obtain ⟨a, ih⟩ := ih
    refine ⟨c :: a, ?_⟩
    rw [afterSlash, List.cons_append, ← ih]
    exact h

/-- The pressure of `n` hundredths of an inch of mercury is shown as said in C104. -/
def inches_shown_at (n : Nat) : Bool :=
  match Pressure.fromString ('A' :: decimal 4 n) with
  | none => false
  | some x => beginsWith (twoDecimals (n - if CutInches n then 1 else 0) ++ c!" inHg / ")
      (afterSlash (explainPressure x))

set_option maxRecDepth 8000 in
theorem inches_shown_1 : ((List.range 130).all fun k => inches_shown_at (2550 + k)) = true := by
  decide +kernel

set_option maxRecDepth 8000 in
theorem inches_shown_2 : ((List.range 130).all fun k => inches_shown_at (2680 + k)) = true := by
  decide +kernel

set_option maxRecDepth 8000 in
theorem inches_shown_3 : ((List.range 130).all fun k => inches_shown_at (2810 + k)) = true := by
  decide +kernel

set_option maxRecDepth 8000 in
theorem inches_shown_4 : ((List.range 130).all fun k => inches_shown_at (2940 + k)) = true := by
  decide +kernel

set_option maxRecDepth 8000 in
theorem inches_shown_5 : ((List.range 130).all fun k => inches_shown_at (3070 + k)) = true := by
  decide +kernel

theorem inches_shown {n : Nat} (hl : 2550 ≤ n) (hn : n < 3200) : inches_shown_at n = true := by
  rcases (by omega : (2550 ≤ n ∧ n < 2680) ∨ (2680 ≤ n ∧ n < 2810) ∨ (2810 ≤ n ∧ n < 2940) ∨ (2940 ≤ n ∧ n < 3070) ∨ (3070 ≤ n ∧ n < 3200)) with
    ⟨h1, h2⟩ | ⟨h1, h2⟩ | ⟨h1, h2⟩ | ⟨h1, h2⟩ | ⟨h1, h2⟩
  · simpa only [Nat.add_sub_cancel' h1] using List.all_eq_true.mp inches_shown_1 (n - 2550) (List.mem_range.mpr (by omega))
  · simpa only [Nat.add_sub_cancel' h1] using List.all_eq_true.mp inches_shown_2 (n - 2680) (List.mem_range.mpr (by omega))
  · simpa only [Nat.add_sub_cancel' h1] using List.all_eq_true.mp inches_shown_3 (n - 2810) (List.mem_range.mpr (by omega))
  · simpa only [Nat.add_sub_cancel' h1] using List.all_eq_true.mp inches_shown_4 (n - 2940) (List.mem_range.mpr (by omega))
  · simpa only [Nat.add_sub_cancel' h1] using List.all_eq_true.mp inches_shown_5 (n - 3070) (List.mem_range.mpr (by omega))

/-- C104. Exactly which pressures in inches of mercury, as in `A3013`, are shown wrong, from 25.50 to 32 inches: more
than half of them, and these are one hundredth too small. -/
theorem C104_inches_exact {n : Nat} (hl : 2550 ≤ n) (hh : n < 3200) :
    ∃ x a f, Pressure.fromString ('A' :: decimal 4 n) = some x ∧
      explainPressure x = a ++ twoDecimals (n - if CutInches n then 1 else 0) ++ c!" inHg / " ++ f := by
  have h := inches_shown hl hh
  unfold inches_shown_at at h
  split at h
  · cases h
  · next x hx =>
    obtain ⟨t, ht⟩ := beginsWith_iff h
    obtain ⟨a, ha⟩ := afterSlash_suffix (explainPressure x)
    refine ⟨x, a, t, hx, ?_⟩
    rw [ha, ht]
    simp only [List.append_assoc]

/-- Of 1000 temperatures 136 are shown wrong, and of 1000 pressures at sea level 400. -/
example : ((List.range 1000).filter fun n => CutTenths n).length = 136 ∧
    ((List.range 1000).filter fun n => CutSeaLevel n).length = 400 := by decide +kernel

/-- Of the 500 pressures from 27 to 32 inches 292 are shown wrong. -/
example : ((List.range 500).filter fun k => CutInches (2700 + k)).length = 292 := by decide +kernel

/-- `T0323`, `SLP123` and `A3013` are shown wrong, `T0322`, `SLP122` and `A3015` are not. -/
example : CutTenths 323 ∧ CutSeaLevel 123 ∧ CutInches 3013 ∧ ¬ CutTenths 322 ∧ ¬ CutSeaLevel 122 ∧ ¬ CutInches 3015 := by
  decide

end Metaf.Props
