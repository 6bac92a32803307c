import Verif.Spec.Values
import Verif.Proofs.Decimal
import Verif.Proofs.Tenths

/-!
C24 to C27, C30: runways, times, temperatures and speeds as text.
-/

set_option linter.unusedSectionVars false

namespace Metaf.Props

variable [FloatSem]

open Metaf.Spec

/-! ### C24 -/

theorem designator_text {c : Char} {d : Designator} (h : Runway.designatorFromChar c = some d) :
    designatorText d = [c] := by
  unfold Runway.designatorFromChar at h
  split at h
  · simp_all [designatorText]; subst h; rfl
  · split at h
    · simp_all [designatorText]; subst h; rfl
    · split at h
      · simp_all [designatorText]; subst h; rfl
      · simp at h

/-- C24. A runway is recognised exactly from R (or RWY where allowed), two digits and an optional
designator; number and designator are those of the text. -/
theorem C24_runway (s : Str) (enableRwy : Bool) (r : Runway) :
    Runway.fromString s enableRwy = some r ↔
      r.rNumber < 100 ∧ ∃ pre, (pre = c!"R" ∨ enableRwy = true ∧ pre = c!"RWY") ∧
        s = pre ++ decimal 2 r.rNumber ++ designatorText r.rDesignator := by
  constructor
  · intro h
    unfold Runway.fromString at h
    split at h
    · simp at h
    · rename_i hlen
      split at h
      · simp at h
      · rename_i h0
        obtain ⟨a, b, c, t, rfl⟩ : ∃ a b c t, s = a :: b :: c :: t := by
          match s, hlen with
          | a :: b :: c :: t, _ => exact ⟨a, b, c, t, rfl⟩
          | [_, _], h => simp at h
          | [_], h => simp at h
          | [], h => simp at h
        obtain rfl : a = 'R' := by simpa [ch] using h0
        simp only at h
        by_cases hw : (enableRwy && ch ('R' :: b :: c :: t) 1 == 'W' &&
          ch ('R' :: b :: c :: t) 2 == 'Y') = true
        · simp only [hw, if_true] at h
          have hw : enableRwy = true ∧ b = 'W' ∧ c = 'Y' := by simpa [ch, and_assoc] using hw
          obtain ⟨hb, rfl, rfl⟩ := hw
          split at h
          · simp at h
          · rename_i n hn
            rw [strToUint_iff (by omega) (by omega)] at hn
            split at h
            · simp at h
            · rename_i hl
              simp only [List.length_cons] at hl hn
              split at h
              · rename_i hl'
                simp only [List.length_cons] at hl'
                obtain ⟨x, y, z, rfl⟩ := length_three (s := t) (by omega)
                split at h
                · simp at h
                · rename_i dsg hd
                  simp only [Option.some.injEq] at h
                  subst h
                  refine ⟨hn.2.1, c!"RWY", Or.inr ⟨hb, rfl⟩, ?_⟩
                  have : [x, y] = decimal 2 n := by simpa [part] using hn.2.2
                  simp only [← this, designator_text hd]
                  rfl
              · rename_i hl'
                simp only [List.length_cons] at hl'
                obtain ⟨x, y, rfl⟩ := length_two (s := t) (by omega)
                simp only [Option.some.injEq] at h
                subst h
                refine ⟨hn.2.1, c!"RWY", Or.inr ⟨hb, rfl⟩, ?_⟩
                have : [x, y] = decimal 2 n := by simpa [part] using hn.2.2
                simp [← this, designatorText]
        · simp only [Bool.not_eq_true] at hw
          simp only [hw, Bool.false_eq_true, if_false] at h
          split at h
          · simp at h
          · rename_i n hn
            rw [strToUint_iff (by omega) (by omega)] at hn
            have : [b, c] = decimal 2 n := by simpa [part] using hn.2.2
            split at h
            · simp at h
            · rename_i hl
              simp only [List.length_cons] at hl hn
              split at h
              · rename_i hl'
                simp only [List.length_cons] at hl'
                obtain ⟨x, rfl⟩ := List.length_eq_one_iff.mp (show t.length = 1 by omega)
                split at h
                · simp at h
                · rename_i dsg hd
                  simp only [Option.some.injEq] at h
                  subst h
                  refine ⟨hn.2.1, c!"R", Or.inl rfl, ?_⟩
                  simp only [← this, designator_text hd]
                  rfl
              · rename_i hl'
                simp only [List.length_cons] at hl'
                obtain rfl : t = [] := List.length_eq_zero_iff.mp (by omega)
                simp only [Option.some.injEq] at h
                subst h
                refine ⟨hn.2.1, c!"R", Or.inl rfl, ?_⟩
                simp [← this, designatorText]
  · obtain ⟨n, dsg⟩ := r
    rintro ⟨hn, pre, hp, rfl⟩
    simp only at hn
    have hw : Nat.digitChar (n / 10 % 10) ≠ 'W' := digitChar_ne rfl (by omega)
    have key : ∀ (q : Str) t, strToUint (q ++ decimal 2 n ++ t) q.length 2 = some n := by
      intro q t
      rw [strToUint_iff (by omega) (by omega)]
      refine ⟨by simp [decimal_length], hn, ?_⟩
      simp [part, decimal_two]
    rcases hp with rfl | ⟨rfl, rfl⟩
    · have k1 := key c!"R" (designatorText dsg)
      cases dsg <;>
        simp_all [Runway.fromString, decimal_two, designatorText, ch, Runway.designatorFromChar]
    · have k1 := key c!"RWY" (designatorText dsg)
      cases dsg <;>
        simp_all [Runway.fromString, decimal_two, designatorText, ch, Runway.designatorFromChar]

/-- C24. A runway is valid exactly with a number up to 36, or as one of the codes 88 (all runways)
and 99 (repetition), which have no designator. -/
theorem C24_valid (r : Runway) :
    r.isValid = true ↔ r.rNumber ≤ 36 ∨ r = ⟨88, .NONE⟩ ∨ r = ⟨99, .NONE⟩ := by
  obtain ⟨n, d⟩ := r
  simp [Runway.isValid, or_assoc]

/-- C24. The special codes. -/
theorem C24_codes (r : Runway) :
    (r.isAllRunways = true ↔ r = ⟨88, .NONE⟩) ∧ (r.isMessageRepetition = true ↔ r = ⟨99, .NONE⟩) := by
  obtain ⟨n, d⟩ := r
  simp [Runway.isAllRunways, Runway.isMessageRepetition]

example : Runway.fromString c!"R24L" = some ⟨24, .LEFT⟩ ∧
    Runway.fromString c!"RWY05" true = some ⟨5, .NONE⟩ ∧
    Runway.fromString c!"RWY05" = none ∧ Runway.fromString c!"R24X" = none := by decide +kernel

/-! ### C25 -/

/-- C25. The forms `DDHHMM` and `HHMM`. -/
theorem C25_ddhhmm (s : Str) (t : MetafTime) :
    MetafTime.fromStringDDHHMM s = some t ↔
      t.hourValue < 100 ∧ t.minuteValue < 100 ∧ (∀ d, t.dayValue = some d → d < 100) ∧
      s = (match t.dayValue with | some d => decimal 2 d | none => []) ++
        decimal 2 t.hourValue ++ decimal 2 t.minuteValue := by
  constructor
  · intro h
    unfold MetafTime.fromStringDDHHMM at h
    split at h
    · rename_i hl
      obtain ⟨a, b, c, d, rfl⟩ := length_four (by simpa using hl)
      split at h
      · rename_i x y hx hy
        rw [strToUint_iff (by omega) (by omega)] at hx hy
        simp only [Option.some.injEq] at h
        subst h
        have h1 : [a, b] = decimal 2 x := by simpa [part] using hx.2.2
        have h2 : [c, d] = decimal 2 y := by simpa [part] using hy.2.2
        exact ⟨hx.2.1, hy.2.1, by simp, by simp [← h1, ← h2]⟩
      · simp at h
    · split at h
      · rename_i hl
        obtain ⟨a, b, c, d, e, f, rfl⟩ := length_six (by simpa using hl)
        split at h
        · rename_i x y z hx hy hz
          rw [strToUint_iff (by omega) (by omega)] at hx hy hz
          simp only [Option.some.injEq] at h
          subst h
          have h1 : [a, b] = decimal 2 x := by simpa [part] using hx.2.2
          have h2 : [c, d] = decimal 2 y := by simpa [part] using hy.2.2
          have h3 : [e, f] = decimal 2 z := by simpa [part] using hz.2.2
          exact ⟨hy.2.1, hz.2.1, by simpa using hx.2.1, by simp [← h1, ← h2, ← h3]⟩
        · simp at h
      · simp at h
  · obtain ⟨d, h, m⟩ := t
    rintro ⟨hh, hm, hd, rfl⟩
    cases d with
    | none =>
      unfold MetafTime.fromStringDDHHMM
      rw [if_pos (by simp [decimal_length])]
      simp only [List.nil_append]
      rw [(strToUint_iff (by omega) (by omega)).mpr ⟨by simp [decimal_length], hh, by
          simp [part, decimal_two]⟩,
        (strToUint_iff (by omega) (by omega)).mpr ⟨by simp [decimal_length], hm, by
          simp [part, decimal_two]⟩]
    | some d =>
      unfold MetafTime.fromStringDDHHMM
      rw [if_neg (by simp [decimal_length]), if_pos (by simp [decimal_length])]
      simp only
      rw [(strToUint_iff (by omega) (by omega)).mpr ⟨by simp [decimal_length], hd d rfl, by
          simp [part, decimal_two]⟩,
        (strToUint_iff (by omega) (by omega)).mpr ⟨by simp [decimal_length], hh, by
          simp [part, decimal_two]⟩,
        (strToUint_iff (by omega) (by omega)).mpr ⟨by simp [decimal_length], hm, by
          simp [part, decimal_two]⟩]

/-- C25. The form `DDHH`. -/
theorem C25_ddhh (s : Str) (t : MetafTime) :
    MetafTime.fromStringDDHH s = some t ↔
      ∃ d h, d < 100 ∧ h < 100 ∧ t = ⟨some d, h, 0⟩ ∧ s = decimal 2 d ++ decimal 2 h := by
  constructor
  · intro h
    unfold MetafTime.fromStringDDHH at h
    split at h
    · simp at h
    · rename_i hl
      obtain ⟨a, b, c, d, rfl⟩ := length_four (s := s) (by simpa using hl)
      split at h
      · rename_i x y hx hy
        rw [strToUint_iff (by omega) (by omega)] at hx hy
        simp only [Option.some.injEq] at h
        subst h
        have h1 : [a, b] = decimal 2 x := by simpa [part] using hx.2.2
        have h2 : [c, d] = decimal 2 y := by simpa [part] using hy.2.2
        exact ⟨x, y, hx.2.1, hy.2.1, rfl, by simp [← h1, ← h2]⟩
      · simp at h
  · rintro ⟨d, h, hd, hh, rfl, rfl⟩
    unfold MetafTime.fromStringDDHH
    rw [if_neg (by simp [decimal_length])]
    rw [(strToUint_iff (by omega) (by omega)).mpr ⟨by simp [decimal_length], hd, by
          simp [part, decimal_two]⟩,
        (strToUint_iff (by omega) (by omega)).mpr ⟨by simp [decimal_length], hh, by
          simp [part, decimal_two]⟩]

/-- C25. Validity of a time: day 1 to 31 if given, hour 0 to 24, minute 0 to 59. -/
theorem C25_valid (t : MetafTime) :
    t.isValid = true ↔
      (∀ d, t.dayValue = some d → 1 ≤ d ∧ d ≤ 31) ∧ t.hourValue ≤ 24 ∧ t.minuteValue ≤ 59 := by
  obtain ⟨d, h, m⟩ := t
  unfold MetafTime.isValid
  cases d with
  | none => simp
  | some d =>
    simp only [Option.getD_some, Option.some.injEq, forall_eq']
    by_cases h1 : d > 31 ∨ d = 0
    · simp [h1]; omega
    · simp [h1]; omega

/-- C25. Every valid time is read back from its text. -/
theorem C25_round_trip (t : MetafTime) (hv : t.isValid = true) :
    MetafTime.fromStringDDHHMM
      ((match t.dayValue with | some d => decimal 2 d | none => []) ++
        decimal 2 t.hourValue ++ decimal 2 t.minuteValue) = some t := by
  obtain ⟨h1, h2, h3⟩ := (C25_valid t).mp hv
  exact (C25_ddhhmm _ t).mpr ⟨by omega, by omega, fun d hd => by have := h1 d hd; omega, rfl⟩

example : MetafTime.fromStringDDHHMM c!"041115" = some ⟨some 4, 11, 15⟩ ∧
    MetafTime.fromStringDDHHMM c!"1115" = some ⟨none, 11, 15⟩ ∧
    MetafTime.fromStringDDHH c!"0424" = some ⟨some 4, 24, 0⟩ ∧
    (⟨some 4, 11, 15⟩ : MetafTime).isValid = true ∧
    (⟨some 32, 11, 15⟩ : MetafTime).isValid = false := by decide +kernel

/-! ### C26 -/

/-- C26, in part. The date keeps the stored day, is not later than the reference, is in the same or
in the previous month, and no later date up to the reference has that day. Missing: it may be a date
that does not exist, see `C26_violated`. -/
theorem C26_date_partial (t : MetafTime) (ref : Date) (day : Nat) (hd : t.dayValue = some day)
    (hy : 1 ≤ ref.year) (hyr : ref.year < 4294967296) (hm : 1 ≤ ref.month) (hm' : ref.month ≤ 12) :
    (t.dateBeforeRef ref).day = day ∧ NotLater (t.dateBeforeRef ref) ref ∧
    SameOrPreviousMonth (t.dateBeforeRef ref) ref ∧
    1 ≤ (t.dateBeforeRef ref).month ∧ (t.dateBeforeRef ref).month ≤ 12 ∧
    ∀ d : Date, d.day = day → 1 ≤ d.month → d.month ≤ 12 → NotLater d ref → NotLater d (t.dateBeforeRef ref) := by
  obtain ⟨y, m, d⟩ := ref
  simp only at hy hyr hm hm'
  have w1 : wrap (y + (uintRange - 1)) = y - 1 := by unfold wrap uintRange; omega
  have w2 : wrap (m + (uintRange - 1)) = m - 1 := by unfold wrap uintRange; omega
  unfold MetafTime.dateBeforeRef
  rw [hd]
  simp only
  split
  · split
    · rename_i h
      have h : m = 1 := by simpa using h
      rw [w1]
      refine ⟨rfl, ?_, ?_, ?_, ?_, ?_⟩
      · simp [NotLater]; try omega
      · simp [SameOrPreviousMonth]; try omega
      · simp only; omega
      · simp only; omega
      · rintro ⟨y', m', d'⟩
        simp only [NotLater]
        omega
    · rename_i h
      have h : m ≠ 1 := by simpa using h
      rw [w2]
      refine ⟨rfl, ?_, ?_, ?_, ?_, ?_⟩
      · simp [NotLater]; try omega
      · simp [SameOrPreviousMonth]; try omega
      · simp only; omega
      · simp only; omega
      · rintro ⟨y', m', d'⟩
        simp only [NotLater]
        omega
  · refine ⟨rfl, ?_, ?_, ?_, ?_, ?_⟩
    · simp [NotLater]; try omega
    · simp [SameOrPreviousMonth]; try omega
    · exact hm
    · exact hm'
    · rintro ⟨y', m', d'⟩
      simp only [NotLater]
      omega

/-- C26. Without a stored day the reference is returned. -/
theorem C26_no_day (t : MetafTime) (ref : Date) (hd : t.dayValue = none) :
    t.dateBeforeRef ref = ref := by
  simp [MetafTime.dateBeforeRef, hd]

/-- C26. Exactly when the date does not exist: for a valid stored day and an existing reference the
date exists unless the previous month has no such day. -/
theorem C26_exists (t : MetafTime) (ref : Date) (day : Nat) (hd : t.dayValue = some day)
    (hv : t.isValid = true) (hr : RealDate ref) (hy : 1 ≤ ref.year) (hyr : ref.year < 4294967296) :
    RealDate (t.dateBeforeRef ref) ↔
      (ref.day < day → 2 ≤ ref.month → day ≤ daysInMonth ref.year (ref.month - 1)) := by
  obtain ⟨y, m, d⟩ := ref
  obtain ⟨h1, h2, h3, h4⟩ := hr
  obtain ⟨v1, -, -⟩ := (C25_valid t).mp hv
  have v1 := v1 day hd
  simp only at h1 h2 h3 h4 hy hyr
  have w1 : wrap (y + (uintRange - 1)) = y - 1 := by unfold wrap uintRange; omega
  have w2 : wrap (m + (uintRange - 1)) = m - 1 := by unfold wrap uintRange; omega
  unfold MetafTime.dateBeforeRef
  rw [hd]
  simp only
  split
  · split
    · rename_i hg h
      have h : m = 1 := by simpa using h
      subst h
      rw [w1]
      simp only [RealDate]
      have : daysInMonth (y - 1) 12 = 31 := rfl
      rw [this]
      constructor
      · intro _ _ h; omega
      · intro _; omega
    · rename_i hg h
      have h : m ≠ 1 := by simpa using h
      rw [w2]
      simp only [RealDate]
      constructor
      · intro h _ _; exact h.2.2.2
      · intro h; exact ⟨by omega, by omega, by omega, h hg (by omega)⟩
  · rename_i hg
    simp only [RealDate]
    constructor
    · intro _ h; omega
    · intro _; exact ⟨h1, h2, by omega, by omega⟩

/-- C26 is violated: the date need not exist. A report of the day 31 seen on 15 March is dated
31 February. -/
theorem C26_violated :
    ∃ (t : MetafTime) (ref : Date), t.isValid = true ∧ RealDate ref ∧
      ¬ RealDate (t.dateBeforeRef ref) :=
  ⟨⟨some 31, 12, 0⟩, ⟨2021, 3, 15⟩, by decide, by unfold RealDate; decide, by unfold RealDate; decide⟩

example : (⟨some 30, 12, 0⟩ : MetafTime).dateBeforeRef ⟨2021, 1, 15⟩ = ⟨2020, 12, 30⟩ := by
  decide +kernel

/-! ### C27 -/

/-- C27. The two digit forms of a temperature, with M for minus, or not reported. -/
theorem C27_two_digits (s : Str) (t : Temperature) :
    Temperature.fromString s = some t ↔
      (s = c!"//" ∧ t = ⟨none, false, false⟩) ∨
      (∃ n, n < 100 ∧ s = decimal 2 n ∧ t = ⟨some n, false, false⟩) ∨
      (∃ n, n < 100 ∧ s = 'M' :: decimal 2 n ∧ t = ⟨some (-n), true, false⟩) := by
  constructor
  · intro h
    unfold Temperature.fromString at h
    split at h
    · simp only [Option.some.injEq] at h
      exact Or.inl ⟨by assumption, h.symm⟩
    · split at h
      · rename_i hl
        obtain ⟨a, b, c, rfl⟩ := length_three (s := s) (by simpa using hl)
        split at h
        · simp at h
        · rename_i ha
          obtain rfl : a = 'M' := by simpa [ch] using ha
          split at h
          · simp at h
          · rename_i n hn
            rw [strToUint_iff (by omega) (by omega)] at hn
            have h1 : [b, c] = decimal 2 n := by simpa [part] using hn.2.2
            simp only [Option.some.injEq] at h
            exact Or.inr (Or.inr ⟨n, hn.2.1, by rw [← h1], h.symm⟩)
      · split at h
        · rename_i hl
          obtain ⟨a, b, rfl⟩ := length_two (s := s) (by simpa using hl)
          split at h
          · simp at h
          · rename_i n hn
            rw [strToUint_iff (by omega) (by omega)] at hn
            have h1 : [a, b] = decimal 2 n := by simpa [part] using hn.2.2
            simp only [Option.some.injEq] at h
            exact Or.inr (Or.inl ⟨n, hn.2.1, by rw [← h1], h.symm⟩)
        · simp at h
  · rintro (⟨rfl, rfl⟩ | ⟨n, hn, rfl, rfl⟩ | ⟨n, hn, rfl, rfl⟩)
    · rfl
    · have h1 : Nat.digitChar (n / 10 % 10) ≠ '/' := digitChar_ne rfl (by omega)
      have h2 : strToUint (decimal 2 n) 0 2 = some n :=
        (strToUint_iff (by omega) (by omega)).mpr ⟨by simp [decimal_length], hn, by
          simp [part, decimal_two]⟩
      unfold Temperature.fromString
      rw [if_neg (by simp [decimal_two, h1]), if_neg (by simp [decimal_length]),
        if_pos (by simp [decimal_length]), h2]
    · have h2 : strToUint ('M' :: decimal 2 n) 1 2 = some n :=
        (strToUint_iff (by omega) (by omega)).mpr ⟨by simp [decimal_length], hn, by
          simp [part, decimal_two]⟩
      unfold Temperature.fromString
      rw [if_neg (by simp [decimal_two]), if_pos (by simp [decimal_length]),
        if_neg (by simp [ch]), h2]

/-- C27. The remark form: sign digit and three digits in tenths. The stored number of tenths is the
one written, whatever the rounding of the floating point numbers it passes through, and the value
counts as freezing exactly if it is below zero. -/
theorem C27_remark (s : Str) (t : Temperature) :
    Temperature.fromRemarkString s = some t ↔
      ∃ n, n < 1000 ∧
        ((s = '0' :: decimal 3 n ∧ t = ⟨some n, false, true⟩) ∨
         (s = '1' :: decimal 3 n ∧ t = ⟨some (-n), decide (0 < n), true⟩)) := by
  have hof : ∀ k : Int, |k| ≤ 999 →
      Temperature.ofFloat (f32 (f64 ((k : Rat) / 10))) = ⟨some k, decide (k < 0), true⟩ := by
    intro k hk
    simp only [Temperature.ofFloat, tenths_round hk, tenths_neg hk]
  have hp : ∀ n : Nat, n < 1000 → Temperature.ofFloat (f32 (f64 (((n : Int) : Rat) / 10))) =
      ⟨some n, false, true⟩ := by
    intro n hn
    rw [hof _ (by rw [abs_of_nonneg (by omega)]; omega)]
    simp
  have hm : ∀ n : Nat, n < 1000 → Temperature.ofFloat (f32 (f64 (((-(n : Int) : Int) : Rat) / 10))) =
      ⟨some (-n), decide (0 < n), true⟩ := by
    intro n hn
    rw [hof _ (by rw [abs_neg, abs_of_nonneg (by omega)]; omega)]
    congr 1
    simp
  constructor
  · intro h
    unfold Temperature.fromRemarkString at h
    split at h
    · simp at h
    · rename_i hl
      obtain ⟨a, b, c, d, rfl⟩ := length_four (s := s) (by simpa using hl)
      split at h
      · simp at h
      · rename_i ha
        split at h
        · simp at h
        · rename_i n hn
          rw [strToUint_iff (by omega) (by omega)] at hn
          have h1 : [b, c, d] = decimal 3 n := by simpa [part] using hn.2.2
          refine ⟨n, hn.2.1, ?_⟩
          have ha : a = '1' ∨ a = '0' := by
            simp [ch] at ha
            by_cases h0 : a = '0'
            · exact Or.inr h0
            · exact Or.inl (ha h0)
          rcases ha with rfl | rfl
          · right
            simp only [ch, List.getD_cons_zero, beq_self_eq_true, if_true, Option.some.injEq] at h
            rw [hm n hn.2.1] at h
            exact ⟨by rw [h1], h.symm⟩
          · left
            simp only [ch, List.getD_cons_zero] at h
            rw [if_neg (by decide), Option.some.injEq, hp n hn.2.1] at h
            exact ⟨by rw [h1], h.symm⟩
  · rintro ⟨n, hn, ⟨rfl, rfl⟩ | ⟨rfl, rfl⟩⟩
    · have h2 : strToUint ('0' :: decimal 3 n) 1 3 = some n :=
        (strToUint_iff (by omega) (by omega)).mpr ⟨by simp [decimal_length], by omega, by
          simp [part, decimal_three]⟩
      unfold Temperature.fromRemarkString
      rw [if_neg (by simp [decimal_length]), if_neg (by simp [ch]), h2]
      simp only [ch, List.getD_cons_zero]
      rw [if_neg (by decide), hp n hn]
    · have h2 : strToUint ('1' :: decimal 3 n) 1 3 = some n :=
        (strToUint_iff (by omega) (by omega)).mpr ⟨by simp [decimal_length], by omega, by
          simp [part, decimal_three]⟩
      unfold Temperature.fromRemarkString
      rw [if_neg (by simp [decimal_length]), if_neg (by simp [ch]), h2]
      simp only [ch, List.getD_cons_zero, beq_self_eq_true, if_true]
      rw [hm n hn]

/-- C27. The value handed out: whole degrees exactly, tenths up to the precision of `float`. -/
theorem C27_value (t : Temperature) (n : Int) (hn : t.tempValue = some n) (hb : |n| ≤ 999) :
    ∃ x, t.temperature = some x ∧
      (t.precise = false → x = n) ∧ (t.precise = true → |x - n / 10| ≤ 1 / 10000) := by
  obtain ⟨v, f, p⟩ := t
  simp only at hn
  subst hn
  have hi : f32 (n : Rat) = n := FloatSem.f32_int n (by omega)
  cases p with
  | false => exact ⟨_, rfl, by simp [hi], by simp⟩
  | true =>
    refine ⟨_, rfl, by simp, fun _ => ?_⟩
    simp only [if_true, hi]
    have hq : |(n : Rat)| ≤ 999 := by exact_mod_cast hb
    have h1 := f64_near (1 / 10) (near_self (1 / 10)) (by norm_num) (by norm_num)
    have h2 := f32_near (1 / 10) h1 (by norm_num) (by norm_num)
    have h3 := mul_near (near_self (n : Rat)) h2 hq (show |(1 / 10 : Rat)| ≤ 1 / 10 by norm_num)
    have h4 := f32_near 100 h3 (by
      rw [abs_mul, show |(1 / 10 : Rat)| = 1 / 10 by norm_num]; linarith) (by norm_num)
    rw [show (n : Rat) / 10 = n * (1 / 10) by ring]
    exact le_trans h4 (by norm_num)

/-! ### C30 -/

/-- C30. A speed is recognised exactly from no text or `//` (not reported), two digits, or three
digits the first of which is not zero. -/
theorem C30_speed (s : Str) (unit : SpeedUnit) (x : Speed) :
    Speed.fromString s unit = some x ↔
      ((s = [] ∨ s = c!"//") ∧ x = ⟨none, .KNOTS⟩) ∨
      (∃ n, n < 100 ∧ s = decimal 2 n ∧ x = ⟨some n, unit⟩) ∨
      (∃ n, 100 ≤ n ∧ n < 1000 ∧ s = decimal 3 n ∧ x = ⟨some n, unit⟩) := by
  constructor
  · intro h
    unfold Speed.fromString at h
    split at h
    · rename_i hs
      simp only [Option.some.injEq] at h
      exact Or.inl ⟨by simpa using hs, h.symm⟩
    · split at h
      · simp at h
      · rename_i hl
        split at h
        · simp at h
        · rename_i h0
          split at h
          · simp at h
          · rename_i n hn
            simp only [Option.some.injEq] at h
            have hl : s.length = 2 ∨ s.length = 3 := by
              simp at hl; omega
            rcases hl with hl | hl
            · rw [hl, strToUint_iff (by omega) (by omega)] at hn
              obtain ⟨a, b, rfl⟩ := length_two hl
              have h1 : [a, b] = decimal 2 n := by simpa [part] using hn.2.2
              exact Or.inr (Or.inl ⟨n, hn.2.1, h1, h.symm⟩)
            · rw [hl, strToUint_iff (by omega) (by omega)] at hn
              obtain ⟨a, b, c, rfl⟩ := length_three hl
              have h1 : [a, b, c] = decimal 3 n := by simpa [part] using hn.2.2
              refine Or.inr (Or.inr ⟨n, ?_, hn.2.1, h1, h.symm⟩)
              by_contra hlt
              have : n / 10 / 10 % 10 = 0 := by omega
              rw [decimal_three, this] at h1
              simp only [List.cons.injEq] at h1
              apply h0
              simp [ch, h1.1]
  · rintro (⟨rfl | rfl, rfl⟩ | ⟨n, hn, rfl, rfl⟩ | ⟨n, hn', hn, rfl, rfl⟩)
    · rfl
    · rfl
    · have h1 : Nat.digitChar (n / 10 % 10) ≠ '/' := digitChar_ne rfl (by omega)
      have h2 : strToUint (decimal 2 n) 0 2 = some n :=
        (strToUint_iff (by omega) (by omega)).mpr ⟨by simp [decimal_length], hn, by
          simp [part, decimal_two]⟩
      unfold Speed.fromString
      rw [if_neg (by simp [decimal_two, h1]), if_neg (by simp [decimal_length]),
        if_neg (by simp [decimal_length]), decimal_length, h2]
    · have h2 : strToUint (decimal 3 n) 0 3 = some n :=
        (strToUint_iff (by omega) (by omega)).mpr ⟨by simp [decimal_length], by omega, by
          simp [part, decimal_three]⟩
      have h0 : Nat.digitChar (n / 10 / 10 % 10) ≠ '0' := by
        have : n / 10 / 10 % 10 ≠ 0 := by omega
        have h10 : n / 10 / 10 % 10 < 10 := by omega
        generalize n / 10 / 10 % 10 = k at this h10
        interval_cases k <;> simp_all
      unfold Speed.fromString
      rw [if_neg (by simp [decimal_three]), if_neg (by simp [decimal_length]),
        if_neg (by simp [decimal_three, ch, h0]), decimal_length, h2]

/-- C30. The unit suffixes. -/
theorem C30_unit (s : Str) (u : SpeedUnit) :
    Speed.unitFromString s = some u ↔
      s = c!"KT" ∧ u = .KNOTS ∨ s = c!"MPS" ∧ u = .METERS_PER_SECOND ∨
      s = c!"KMH" ∧ u = .KILOMETERS_PER_HOUR := by
  unfold Speed.unitFromString
  constructor
  · intro h
    split at h
    · simp_all
    · split at h
      · simp_all
      · split at h <;> simp_all
  · rintro (⟨rfl, rfl⟩ | ⟨rfl, rfl⟩ | ⟨rfl, rfl⟩) <;> rfl

example : Temperature.fromString c!"M05" = some ⟨some (-5), true, false⟩ ∧
    Temperature.fromString c!"M00" = some ⟨some 0, true, false⟩ ∧
    Temperature.fromString c!"5" = none ∧
    Speed.fromString c!"115" .KNOTS = some ⟨some 115, .KNOTS⟩ ∧
    Speed.fromString c!"015" .KNOTS = none := by decide +kernel

end Metaf.Props

namespace Metaf.Props

open Metaf.Spec

attribute [local instance] exactFloat

example : Temperature.fromRemarkString c!"1056" = some ⟨some (-56), true, true⟩ ∧
    Temperature.fromRemarkString c!"0123" = some ⟨some 123, false, true⟩ ∧
    Temperature.fromRemarkString c!"2123" = none := by decide +kernel

example : (⟨some (-56), true, true⟩ : Temperature).temperature = some (-56 / 10) := by
  decide +kernel

end Metaf.Props
