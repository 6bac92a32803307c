import Verif.Props.Visibility
import Verif.Props.Headings

/-!
The texts a remark on visibility is made of. Used by C64.
-/

namespace Metaf.Props

set_option linter.unusedSectionVars false

open Metaf Metaf.Spec Metaf.VisibilityGroup

variable [FloatSem]

/-! ### Specification -/

/-- A distance of `q` miles, kept in units of 1/10000 mile. -/
def mileDistance (m : Modifier) (q : Rat) : Distance := ⟨m, some ⌊q * 10000⌋₊, .STATUTE_MILES⟩

/-- Miles without the unit, possibly more than (P) or less than (M) the value given. -/
def MileWord (s : Str) (m : Modifier) (q : Rat) : Prop :=
  ∃ p t, MilePrefix p m ∧ MileText t q ∧ s = p ++ t

/-- Whole miles. -/
def WholeWord (s : Str) (m : Modifier) (q : Rat) : Prop := MileWord s m q ∧ '/' ∉ s

/-- Miles with a fraction. -/
def PartWord (s : Str) (m : Modifier) (q : Rat) : Prop := MileWord s m q ∧ '/' ∈ s

/-- A whole number. -/
def IsWhole (q : Rat) : Prop := ∃ n : Nat, q = n

/-- A fraction which is not a whole number, the numerator and denominator having one or two digits. -/
def FractionWord (s : Str) (q : Rat) : Prop :=
  ∃ i j a b : Nat, (i = 1 ∨ i = 2) ∧ (j = 1 ∨ j = 2) ∧ a < 10 ^ i ∧ b < 10 ^ j ∧ b ≠ 0 ∧
    s = decimal i a ++ '/' :: decimal j b ∧ q = a / b ∧ ¬ IsWhole q

/-- Metres; 9999 stands for more than 10 km. -/
def MeterWord (s : Str) (d : Distance) : Prop :=
  (s = c!"9999" ∧ d = ⟨.MORE_THAN, some 10000, .METERS⟩) ∨
  ∃ n < 9999, s = decimal 4 n ∧ d = ⟨.NONE, some n, .METERS⟩

/-- A runway. -/
def RunwayWord (s : Str) (r : Runway) : Prop :=
  r.rNumber < 100 ∧ ∃ pre, (pre = c!"R" ∨ pre = c!"RWY") ∧
    s = pre ++ decimal 2 r.rNumber ++ designatorText r.rDesignator

/-- A direction (or NDV), or a sector from one direction to another. -/
inductive WhereWord : Str → Option Direction → Option Direction → Option Direction → Prop
  | octant {w n} : (w, n) ∈ octantNames → WhereWord w (some ⟨n, .VALUE_CARDINAL⟩) none none
  | ndv : WhereWord c!"NDV" (some ⟨0, .NDV⟩) none none
  | sector {x n mid y m} : (x, n) ∈ octantNames → (y, m) ∈ octantNames → (∀ w ∈ mid, IsOctant w) →
      WhereWord (dashed x (mid ++ [y])) none (some ⟨n, .VALUE_CARDINAL⟩) (some ⟨m, .VALUE_CARDINAL⟩)

/-! ### Miles -/

theorem mileString_iff (s : Str) (d : Distance) :
    Distance.fromMileString s true = some d ↔ ∃ m q, MileWord s m q ∧ d = mileDistance m q := by
  rw [C32_miles_remark]
  constructor
  · rintro ⟨p, t, m, q, rfl, hp, ht, rfl⟩
    exact ⟨m, q, ⟨p, t, hp, ht, rfl⟩, rfl⟩
  · rintro ⟨m, q, ⟨p, t, hp, ht, rfl⟩, rfl⟩
    exact ⟨p, t, m, q, rfl, hp, ht, rfl⟩

theorem mileText_chars {t : Str} {q : Rat} (h : MileText t q) : ∀ c ∈ t, isDigit c = true ∨ c = '/' := by
  rcases h with ⟨k, n, -, -, rfl, -⟩ | ⟨i, j, a, b, -, -, -, -, rfl, -⟩
  · intro c hc; exact Or.inl (decimal_digits _ _ c hc)
  · intro c hc
    simp only [List.mem_append, List.mem_cons] at hc
    rcases hc with hc | rfl | hc
    · exact Or.inl (decimal_digits _ _ c hc)
    · exact Or.inr rfl
    · exact Or.inl (decimal_digits _ _ c hc)

theorem mileWord_chars {s : Str} {m : Modifier} {q : Rat} (h : MileWord s m q) :
    ∀ c ∈ s, isDigit c = true ∨ c = '/' ∨ c = 'P' ∨ c = 'M' := by
  obtain ⟨p, t, hp, ht, rfl⟩ := h
  intro c hc
  rcases List.mem_append.mp hc with hc | hc
  · rcases hp with ⟨rfl, -⟩ | ⟨rfl, -⟩ | ⟨rfl, -⟩ <;> simp at hc <;> simp [hc]
  · rcases mileText_chars ht c hc with h | h
    · exact Or.inl h
    · exact Or.inr (Or.inl h)

theorem mileWord_head {s : Str} {m : Modifier} {q : Rat} (h : MileWord s m q) :
    ∃ c r, s = c :: r ∧ (isDigit c = true ∨ c = 'P' ∨ c = 'M') := by
  obtain ⟨p, t, hp, ht, rfl⟩ := h
  obtain ⟨c, r, rfl, hc⟩ := mileText_head ht
  rcases hp with ⟨rfl, -⟩ | ⟨rfl, -⟩ | ⟨rfl, -⟩
  · exact ⟨c, r, rfl, Or.inl hc⟩
  · exact ⟨_, _, rfl, Or.inr (Or.inl rfl)⟩
  · exact ⟨_, _, rfl, Or.inr (Or.inr rfl)⟩

theorem mileWord_noV {s : Str} {m : Modifier} {q : Rat} (h : MileWord s m q) : 'V' ∉ s := by
  intro hc
  rcases mileWord_chars h _ hc with h | h | h | h <;> revert h <;> decide

theorem prefix_no_slash {p : Str} {m : Modifier} (h : MilePrefix p m) : '/' ∉ p := by
  rcases h with ⟨rfl, -⟩ | ⟨rfl, -⟩ | ⟨rfl, -⟩ <;> decide

theorem wholeWord_nat {s : Str} {m : Modifier} {q : Rat} (h : WholeWord s m q) :
    ∃ n : Nat, n < 100 ∧ q = n ∧ s.length ≤ 3 ∧ 0 < s.length := by
  obtain ⟨⟨p, t, hp, ht, rfl⟩, hs⟩ := h
  rcases ht with ⟨k, n, hk, hn, rfl, rfl⟩ | ⟨i, j, a, b, -, -, -, -, rfl, -⟩
  · refine ⟨n, by rcases hk with rfl | rfl <;> omega, rfl, ?_, ?_⟩
    · rcases hk with rfl | rfl <;> rcases hp with ⟨rfl, -⟩ | ⟨rfl, -⟩ | ⟨rfl, -⟩ <;>
        simp [decimal_length]
    · rcases hk with rfl | rfl <;> simp [decimal_length]
  · simp at hs

/-- The values which can be written in miles. -/
theorem part_value {s : Str} {m : Modifier} {q : Rat} (h : MileWord s m q) :
    ∃ i a b : Nat, i < 100 ∧ a < 100 ∧ 0 < b ∧ b < 100 ∧ q = i + a / b := by
  obtain ⟨p, t, -, ht, -⟩ := h
  rcases ht with ⟨k, n, hk, hn, -, rfl⟩ | ⟨i, j, a, b, hi, hj, ha, hb, -, ha0, hb0, ⟨-, rfl⟩ | ⟨-, -, rfl⟩⟩
  · exact ⟨n, 0, 1, by rcases hk with rfl | rfl <;> omega, by omega, by omega, by omega, by simp⟩
  · exact ⟨0, a, b, by omega, by rcases hi with rfl | rfl <;> omega, hb0,
      by rcases hj with rfl | rfl <;> omega, by simp⟩
  · exact ⟨a / 10, a % 10, b, by rcases hi with rfl | rfl <;> omega, by omega, hb0,
      by rcases hj with rfl | rfl <;> omega, rfl⟩

theorem floor_mixed (i a b : Nat) : ⌊((i : Rat) + a / b) * 10000⌋₊ = i * 10000 + a * 10000 / b := by
  have : ((i : Rat) + (a : Rat) / b) * 10000 =
      ((a * 10000 : Nat) : Rat) / (b : Nat) + (i * 10000 : Nat) := by push_cast; ring
  rw [this, Nat.floor_add_natCast (by positivity), Nat.floor_div_natCast, Nat.floor_natCast]
  omega

/-- Whether a sum of whole miles and a fraction is whole can be told from the number kept. -/
theorem whole_kept {i a b : Nat} (hb : 0 < b) (hb' : b < 100) :
    (⌊((i : Rat) + a / b) * 10000⌋₊ % 10000 = 0 ↔ IsWhole ((i : Rat) + a / b)) := by
  rw [floor_mixed]
  have hd := Nat.div_add_mod a b
  have hlt := Nat.mod_lt a hb
  have e : a * 10000 / b = (a / b) * 10000 + (a % b) * 10000 / b := by
    conv_lhs => rw [← hd]
    rw [Nat.add_mul, mul_assoc, Nat.mul_add_div hb]
  have hsmall : (a % b) * 10000 / b < 10000 := by
    rw [Nat.div_lt_iff_lt_mul hb]
    nlinarith
  constructor
  · intro h
    rw [e] at h
    have h0 : (a % b) * 10000 / b = 0 := by
      revert h hsmall
      generalize (a % b) * 10000 / b = r
      generalize a / b = k
      intro hsmall h
      have h4 : (i * 10000 + (k * 10000 + r)) = r + 10000 * (i + k) := by ring
      rwa [h4, Nat.add_mul_mod_self_left, Nat.mod_eq_of_lt hsmall] at h
    have hz : a % b = 0 := by
      by_contra hne
      have hr : 1 ≤ a % b := Nat.one_le_iff_ne_zero.mpr hne
      have : 1 ≤ (a % b) * 10000 / b := by
        rw [Nat.le_div_iff_mul_le hb]
        revert hr
        generalize a % b = r
        intro hr
        omega
      omega
    refine ⟨i + a / b, ?_⟩
    have hbq : (b : Rat) ≠ 0 := by exact_mod_cast hb.ne'
    have h2 : (a : Rat) = b * (a / b : Nat) := by
      rw [← Nat.cast_mul]
      congr 1
      omega
    conv_lhs => rw [h2]
    push_cast
    field_simp
  · rintro ⟨n, hn⟩
    have hbq : (b : Rat) ≠ 0 := by exact_mod_cast hb.ne'
    have h1 : (i : Rat) * b + a = n * b := by
      field_simp at hn
      linarith
    have h2 : i * b + a = n * b := by exact_mod_cast h1
    have hz : a % b = 0 := by
      have h3 : (i * b + a) % b = (n * b) % b := by rw [h2]
      simpa [Nat.add_mod] using h3
    rw [e, hz, Nat.zero_mul, Nat.zero_div]
    omega

theorem mileWord_kept {s : Str} {m : Modifier} {q : Rat} (h : MileWord s m q) :
    (⌊q * 10000⌋₊ % 10000 = 0 ↔ IsWhole q) ∧ ⌊q * 10000⌋₊ ≤ 2000000 := by
  obtain ⟨i, a, b, hi, ha, hb, hb', rfl⟩ := part_value h
  refine ⟨whole_kept hb hb', ?_⟩
  rw [floor_mixed]
  have : a * 10000 / b ≤ a * 10000 := Nat.div_le_self _ _
  omega

/-- A prefix cannot follow a whole number of miles. -/
theorem sum_iff {m m' : Modifier} {n : Nat} (hn : n < 100) (hm : m = .NONE ∨ m = .MORE_THAN ∨ m = .LESS_THAN)
    {q : Rat} (h0 : 0 ≤ q) (hq : ⌊q * 10000⌋₊ ≤ 2000000) (hw : ⌊q * 10000⌋₊ % 10000 = 0 ↔ IsWhole q)
    (d : Distance) :
    Distance.fromIntegerAndFraction (mileDistance m n) (mileDistance m' q) = some d ↔
      m' = .NONE ∧ ¬ IsWhole q ∧ d = mileDistance m (n + q) := by
  have e1 : ⌊((n : Rat)) * 10000⌋₊ = n * 10000 := by
    have : (n : Rat) * 10000 = ((n * 10000 : Nat) : Rat) := by push_cast; ring
    rw [this, Nat.floor_natCast]
  have e2 : ⌊((n : Rat) + q) * 10000⌋₊ = n * 10000 + ⌊q * 10000⌋₊ := by
    have : ((n : Rat) + q) * 10000 = q * 10000 + (n * 10000 : Nat) := by push_cast; ring
    rw [this, Nat.floor_add_natCast (by positivity)]
    omega
  unfold Distance.fromIntegerAndFraction mileDistance
  simp only [e1, e2]
  have hm' : (m != .NONE && m != .LESS_THAN && m != .MORE_THAN) = false := by
    rcases hm with rfl | rfl | rfl <;> rfl
  simp only [hm', Bool.false_eq_true, if_false, bne_self_eq_false, Bool.or_false]
  by_cases hmm : m' = .NONE
  · subst hmm
    have h4 : (n * 10000 % statuteMileFactor != 0) = false := by simp [statuteMileFactor]
    by_cases hz : ⌊q * 10000⌋₊ % 10000 = 0
    · have h1 := hw.mp hz
      have h3 : (⌊q * 10000⌋₊ % statuteMileFactor == 0) = true := by
        unfold statuteMileFactor; rw [hz]; rfl
      simp [h1, h3, h4]
    · have h1 : ¬ IsWhole q := fun h => hz (hw.mpr h)
      have h2 : wrap (n * 10000 + ⌊q * 10000⌋₊) = n * 10000 + ⌊q * 10000⌋₊ := by
        unfold wrap uintRange
        exact Nat.mod_eq_of_lt (by omega)
      have h3 : (⌊q * 10000⌋₊ % statuteMileFactor == 0) = false := by
        unfold statuteMileFactor; simpa using hz
      simp only [bne_self_eq_false, Bool.false_eq_true, if_false, h1, h2, h3, h4, Bool.or_self,
        not_false_eq_true, true_and, Option.some.injEq]
      exact eq_comm
  · have : (m' != .NONE) = true := by simpa using hmm
    simp [this, hmm]

theorem prefix_cases {s : Str} {m : Modifier} {q : Rat} (h : MileWord s m q) :
    (m = .NONE ∨ m = .MORE_THAN ∨ m = .LESS_THAN) ∧ 0 ≤ q := by
  obtain ⟨i, a, b, -, -, -, -, rfl⟩ := part_value h
  obtain ⟨p, t, hp, -, -⟩ := h
  exact ⟨by rcases hp with ⟨-, h⟩ | ⟨-, h⟩ | ⟨-, h⟩ <;> simp [h], by positivity⟩

theorem find_none {s : Str} {c : Char} : (findFrom s c 0).isNone = true ↔ c ∉ s := by
  rw [Option.isNone_iff_eq_none]
  constructor
  · intro h hc
    unfold findFrom at h
    split at h
    · simp only [Option.map_eq_none_iff, List.drop_zero, List.findIdx?_eq_none_iff] at h
      have := h c hc
      simp at this
    · rename_i hl
      have : s = [] := List.length_eq_zero_iff.mp (by omega)
      simp [this] at hc
  · intro h
    unfold findFrom
    split
    · simp only [Option.map_eq_none_iff, List.drop_zero, List.findIdx?_eq_none_iff]
      intro x hx
      simp only [beq_eq_false_iff_ne]
      rintro rfl
      contradiction
    · rfl

/-! ### The readers -/

theorem appendInteger_iff (g g' : VisibilityGroup) (hg : g.vis.isReported = false) (s : Str)
    (next : VisIncomplete) : appendInteger g s next = some g' ↔
      ∃ m q, WholeWord s m q ∧ g' = { g with vis := mileDistance m q, incompleteText := next } := by
  unfold appendInteger
  constructor
  · intro h
    ite_cases h
    · cases h
    · cases h
    · cases h
    · rename_i h1 h2 h3
      cases hd : Distance.fromMileString s true with
      | none => simp [hd] at h
      | some v =>
        rw [hd] at h
        obtain rfl := Option.some.inj h
        obtain ⟨m, q, hw, rfl⟩ := (mileString_iff s v).mp hd
        refine ⟨m, q, ⟨hw, ?_⟩, rfl⟩
        rw [← find_none]
        simpa using h2
  · rintro ⟨m, q, hw, rfl⟩
    obtain ⟨n, -, -, hl, hl0⟩ := wholeWord_nat hw
    have h1 : (s.isEmpty || decide (s.length > 3)) = false := by
      cases s
      · simp at hl0
      · simpa using hl
    have h2 : (findFrom s '/' 0).isSome = false := by
      have := find_none.mpr hw.2
      simpa using this
    rw [(mileString_iff s _).mpr ⟨m, q, hw.1, rfl⟩]
    simp [h1, h2, hg]

theorem appendFraction_first (g g' : VisibilityGroup) (hg : g.vis.isReported = false) (s : Str)
    (next : VisIncomplete) : appendFraction g s next = some g' ↔
      ∃ m q, PartWord s m q ∧ g' = { g with vis := mileDistance m q, incompleteText := next } := by
  unfold appendFraction
  by_cases hs : '/' ∈ s
  · have h2 : ¬ (findFrom s '/' 0).isNone = true := fun h => find_none.mp h hs
    rw [if_neg h2]
    constructor
    · intro h
      cases hd : Distance.fromMileString s true with
      | none => simp [hd] at h
      | some v =>
        simp only [hd, hg, Bool.false_eq_true, if_false] at h
        obtain rfl := Option.some.inj h
        obtain ⟨m, q, hw, rfl⟩ := (mileString_iff s v).mp hd
        exact ⟨m, q, ⟨hw, hs⟩, rfl⟩
    · rintro ⟨m, q, hw, rfl⟩
      rw [(mileString_iff s _).mpr ⟨m, q, hw.1, rfl⟩]
      simp [hg]
  · rw [if_pos (find_none.mpr hs)]
    constructor
    · intro h; cases h
    · rintro ⟨m, q, hw, -⟩; exact absurd hw.2 hs

theorem appendFraction_second (g g' : VisibilityGroup) {w : Str} {m : Modifier} {p : Rat}
    (hw : WholeWord w m p) (hg : g.vis = mileDistance m p) (s : Str) (next : VisIncomplete) :
    appendFraction g s next = some g' ↔
      ∃ q, PartWord s .NONE q ∧ ¬ IsWhole q ∧
        g' = { g with vis := mileDistance m (p + q), incompleteText := next } := by
  obtain ⟨n, hn, rfl, -, -⟩ := wholeWord_nat hw
  have hm := (prefix_cases hw.1).1
  have hr : (mileDistance m n).isReported = true := rfl
  unfold appendFraction
  by_cases hs : '/' ∈ s
  · have h2 : ¬ (findFrom s '/' 0).isNone = true := fun h => find_none.mp h hs
    rw [if_neg h2]
    constructor
    · intro h
      cases hd : Distance.fromMileString s true with
      | none => simp [hd] at h
      | some v =>
        obtain ⟨m', q, hq, rfl⟩ := (mileString_iff s v).mp hd
        simp only [hd, hg, hr, if_true] at h
        cases hf : Distance.fromIntegerAndFraction (mileDistance m n) (mileDistance m' q) with
        | none => simp [hf] at h
        | some d =>
          rw [hf] at h
          obtain rfl := Option.some.inj h
          obtain ⟨rfl, hnw, rfl⟩ := (sum_iff hn hm (prefix_cases hq).2 (mileWord_kept hq).2
            (mileWord_kept hq).1 d).mp hf
          exact ⟨q, ⟨hq, hs⟩, hnw, rfl⟩
    · rintro ⟨q, hq, hnw, rfl⟩
      rw [(mileString_iff s _).mpr ⟨_, q, hq.1, rfl⟩]
      simp only [hg, hr, if_true]
      rw [(sum_iff hn hm (prefix_cases hq.1).2 (mileWord_kept hq.1).2 (mileWord_kept hq.1).1 _).mpr
        ⟨rfl, hnw, rfl⟩]
  · rw [if_pos (find_none.mpr hs)]
    constructor
    · intro h; cases h
    · rintro ⟨q, hq, -⟩; exact absurd hq.2 hs

theorem appendMax_iff (g g' : VisibilityGroup) {w : Str} {m : Modifier} {p : Rat}
    (hw : WholeWord w m p) (hg : g.visMax = mileDistance m p) (s : Str) (next : VisIncomplete) :
    appendVariableMaxFraction g s next = some g' ↔
      ∃ q, FractionWord s q ∧ g' = { g with visMax := mileDistance m (p + q), incompleteText := next } := by
  obtain ⟨n, hn, rfl, -, -⟩ := wholeWord_nat hw
  have hm := (prefix_cases hw.1).1
  have hwhole : part s 0 s.length = s := by simp [part]
  have key : ∀ a b i j : Nat, (i = 1 ∨ i = 2) → (j = 1 ∨ j = 2) → a < 10 ^ i → b < 10 ^ j → b ≠ 0 →
      Distance.ofFraction a b = mileDistance .NONE ((a : Rat) / b) ∧
      (⌊((a : Rat) / b) * 10000⌋₊ % 10000 = 0 ↔ IsWhole ((a : Rat) / b)) ∧
      ⌊((a : Rat) / b) * 10000⌋₊ ≤ 2000000 := by
    intro a b i j hi hj ha hb hb0
    have ha' : a < 100 := by rcases hi with rfl | rfl <;> omega
    have hb' : b < 100 := by rcases hj with rfl | rfl <;> omega
    have e := floor_mixed 0 a b
    have k := whole_kept (i := 0) (a := a) (Nat.pos_of_ne_zero hb0) hb'
    simp only [Nat.cast_zero, zero_add, Nat.zero_mul] at e k
    refine ⟨?_, k, ?_⟩
    · unfold Distance.ofFraction mileDistance
      have h2 : wrap (a * statuteMileFactor) = a * 10000 := by
        unfold wrap uintRange statuteMileFactor
        exact Nat.mod_eq_of_lt (by omega)
      have h3 : (b == 0) = false := by simpa using hb0
      simp only [h3, h2, e, Bool.false_eq_true, if_false]
    · rw [e]
      have : a * 10000 / b ≤ a * 10000 := Nat.div_le_self _ _
      omega
  unfold appendVariableMaxFraction
  constructor
  · intro h
    cases hf : fractionStrToUint s 0 s.length with
    | none => simp [hf] at h
    | some x =>
      obtain ⟨a, b⟩ := x
      obtain ⟨i, j, hi, hj, ha, hb, e⟩ := fraction_iff.mp hf
      rw [hwhole] at e
      simp only [hf] at h
      by_cases hb0 : b = 0
      · subst hb0
        simp [Distance.ofFraction, Distance.isValue] at h
      · obtain ⟨k1, k2, k3⟩ := key a b i j hi hj ha hb hb0
        rw [k1, hg] at h
        have hv : (mileDistance .NONE ((a : Rat) / b)).isValue = true := rfl
        simp only [hv, Bool.not_true, Bool.false_eq_true, if_false] at h
        cases hs : Distance.fromIntegerAndFraction (mileDistance m n) (mileDistance .NONE ((a : Rat) / b)) with
        | none => simp [hs] at h
        | some d =>
          rw [hs] at h
          obtain rfl := Option.some.inj h
          obtain ⟨-, hnw, rfl⟩ := (sum_iff hn hm (by positivity) k3 k2 d).mp hs
          exact ⟨(a : Rat) / b, ⟨i, j, a, b, hi, hj, ha, hb, hb0, e, rfl, hnw⟩, rfl⟩
  · rintro ⟨q, ⟨i, j, a, b, hi, hj, ha, hb, hb0, e, rfl, hnw⟩, rfl⟩
    obtain ⟨k1, k2, k3⟩ := key a b i j hi hj ha hb hb0
    have hf : fractionStrToUint s 0 s.length = some (a, b) :=
      fraction_iff.mpr ⟨i, j, hi, hj, ha, hb, by rw [hwhole, e]⟩
    have hv : (mileDistance .NONE ((a : Rat) / b)).isValue = true := rfl
    simp only [hf, k1, hg, hv, Bool.not_true, Bool.false_eq_true, if_false]
    rw [(sum_iff hn hm (by positivity) k3 k2 _).mpr ⟨rfl, hnw, rfl⟩]

/-! ### Ranges -/

theorem find_split {s a b : Str} {c : Char} (ha : c ∉ a) (hs : s = a ++ c :: b) :
    findFrom s c 0 = some a.length := by
  subst hs
  rw [findFrom_some]
  refine ⟨by simp, by omega, by simp, ?_⟩
  simpa [part] using ha

theorem split_find {s : Str} {c : Char} {k : Nat} (h : findFrom s c 0 = some k) :
    s = s.take k ++ c :: s.drop (k + 1) ∧ c ∉ s.take k ∧ (s.take k).length = k := by
  obtain ⟨hk, -, hc, hn⟩ := findFrom_some.mp h
  refine ⟨?_, by simpa [part] using hn, by simp; omega⟩
  conv_lhs => rw [← List.take_append_drop k s, List.drop_eq_getElem_cons hk, hc]

theorem find_slash_after {a b : Str} : (findFrom (a ++ 'V' :: b) '/' a.length).isNone = true ↔ '/' ∉ b := by
  have : findFrom (a ++ 'V' :: b) '/' a.length = (findFrom ('V' :: b) '/' 0).map (· + a.length) := by
    unfold findFrom
    simp
  rw [this, Option.isNone_map, find_none]
  simp

theorem appendVariable_first (g g' : VisibilityGroup) (hg : g.vis.isReported = false) (s : Str)
    (ni nf : VisIncomplete) : appendVariable g s ni nf = some g' ↔
      ∃ a b m q m' q', MileWord a m q ∧ MileWord b m' q' ∧ s = a ++ 'V' :: b ∧
        g' = { makeVariable { g with vis := mileDistance m q, visMax := mileDistance m' q' } with
               incompleteText := if '/' ∈ b then nf else ni } := by
  unfold appendVariable
  constructor
  · intro h
    cases hv : findFrom s 'V' 0 with
    | none => simp [hv] at h
    | some k =>
      obtain ⟨e, hn, hl⟩ := split_find hv
      simp only [hv] at h
      ite_cases h
      · cases h
      · cases hd : Distance.fromMileString (substr s 0 k) true with
        | none => simp [hd] at h
        | some v =>
          cases hx : Distance.fromMileString (s.drop (k + 1)) true with
          | none => simp [hd, hx] at h
          | some x =>
            simp only [hd, hx, hg, Bool.false_eq_true, if_false] at h
            obtain rfl := Option.some.inj h
            obtain ⟨m, q, hq, rfl⟩ := (mileString_iff _ v).mp hd
            obtain ⟨m', q', hq', rfl⟩ := (mileString_iff _ x).mp hx
            refine ⟨s.take k, s.drop (k + 1), m, q, m', q', by simpa [substr] using hq, hq', e, ?_⟩
            have := find_slash_after (a := s.take k) (b := s.drop (k + 1))
            rw [← e, hl] at this
            simp only [this]
            congr 1
            by_cases hb : '/' ∈ s.drop (k + 1) <;> simp [hb]
  · rintro ⟨a, b, m, q, m', q', ha, hb, rfl, rfl⟩
    rw [find_split (mileWord_noV ha) rfl]
    have h1 : ¬ (a.length = 0 ∨ a.length = (a ++ 'V' :: b).length) := by
      obtain ⟨c, r, rfl, -⟩ := mileWord_head ha
      simp
    have h2 : substr (a ++ 'V' :: b) 0 a.length = a := by simp [substr]
    have h3 : (a ++ 'V' :: b).drop (a.length + 1) = b := by
      rw [← List.drop_drop]; simp
    simp only [h1, if_false, h2, h3, (mileString_iff a _).mpr ⟨m, q, ha, rfl⟩,
      (mileString_iff b _).mpr ⟨m', q', hb, rfl⟩, hg, Bool.false_eq_true, find_slash_after]
    congr 2
    by_cases hs : '/' ∈ b <;> simp [hs]

theorem appendVariable_second (g g' : VisibilityGroup) {w : Str} {m : Modifier} {p : Rat}
    (hw : WholeWord w m p) (hg : g.vis = mileDistance m p) (s : Str)
    (ni nf : VisIncomplete) : appendVariable g s ni nf = some g' ↔
      ∃ a b q m' q', PartWord a .NONE q ∧ ¬ IsWhole q ∧ MileWord b m' q' ∧ s = a ++ 'V' :: b ∧
        g' = { makeVariable { g with vis := mileDistance m (p + q), visMax := mileDistance m' q' } with
               incompleteText := if '/' ∈ b then nf else ni } := by
  obtain ⟨n, hn, rfl, -, -⟩ := wholeWord_nat hw
  have hm := (prefix_cases hw.1).1
  have hr : (mileDistance m n).isReported = true := rfl
  unfold appendVariable
  constructor
  · intro h
    cases hv : findFrom s 'V' 0 with
    | none => simp [hv] at h
    | some k =>
      obtain ⟨e, hnv, hl⟩ := split_find hv
      simp only [hv] at h
      ite_cases h
      · cases h
      · cases hd : Distance.fromMileString (substr s 0 k) true with
        | none => simp [hd] at h
        | some v =>
          cases hx : Distance.fromMileString (s.drop (k + 1)) true with
          | none => simp [hd, hx] at h
          | some x =>
            obtain ⟨m1, q, hq, rfl⟩ := (mileString_iff _ v).mp hd
            obtain ⟨m', q', hq', rfl⟩ := (mileString_iff _ x).mp hx
            simp only [hd, hx, hg, hr, if_true] at h
            cases hf : Distance.fromIntegerAndFraction (mileDistance m n) (mileDistance m1 q) with
            | none => simp [hf] at h
            | some d =>
              rw [hf] at h
              obtain rfl := Option.some.inj h
              obtain ⟨rfl, hnw, rfl⟩ := (sum_iff hn hm (prefix_cases hq).2 (mileWord_kept hq).2
                (mileWord_kept hq).1 d).mp hf
              have hsl : '/' ∈ s.take k := by
                by_contra hc
                obtain ⟨n', -, e', -, -⟩ := wholeWord_nat (s := s.take k) (m := .NONE) (q := q)
                  ⟨by simpa [substr] using hq, hc⟩
                exact hnw ⟨n', e'⟩
              refine ⟨s.take k, s.drop (k + 1), q, m', q', ⟨by simpa [substr] using hq, hsl⟩, hnw, hq', e, ?_⟩
              have := find_slash_after (a := s.take k) (b := s.drop (k + 1))
              rw [← e, hl] at this
              simp only [this]
              congr 1
              by_cases hb : '/' ∈ s.drop (k + 1) <;> simp [hb]
  · rintro ⟨a, b, q, m', q', ha, hnw, hb, rfl, rfl⟩
    rw [find_split (mileWord_noV ha.1) rfl]
    have h1 : ¬ (a.length = 0 ∨ a.length = (a ++ 'V' :: b).length) := by
      obtain ⟨c, r, rfl, -⟩ := mileWord_head ha.1
      simp
    have h2 : substr (a ++ 'V' :: b) 0 a.length = a := by simp [substr]
    have h3 : (a ++ 'V' :: b).drop (a.length + 1) = b := by
      rw [← List.drop_drop]; simp
    simp only [h1, if_false, h2, h3, (mileString_iff a _).mpr ⟨_, q, ha.1, rfl⟩,
      (mileString_iff b _).mpr ⟨m', q', hb, rfl⟩, hg, hr, if_true, find_slash_after,
      (sum_iff hn hm (prefix_cases ha.1).2 (mileWord_kept ha.1).2 (mileWord_kept ha.1).1 _).mpr
        ⟨rfl, hnw, rfl⟩]
    congr 2
    by_cases hs : '/' ∈ b <;> simp [hs]

/-! ### Metres, runways, directions -/

theorem meterString_iff (s : Str) (d : Distance) :
    (Distance.fromMeterString s = some d ∧ d.isReported = true) ↔ MeterWord s d := by
  rw [C47_meters]
  constructor
  · rintro ⟨⟨rfl, rfl⟩ | h | h, hr⟩
    · cases hr
    · exact Or.inl h
    · exact Or.inr h
  · rintro (⟨rfl, rfl⟩ | ⟨n, hn, rfl, rfl⟩)
    · exact ⟨Or.inr (Or.inl ⟨rfl, rfl⟩), rfl⟩
    · exact ⟨Or.inr (Or.inr ⟨n, hn, rfl, rfl⟩), rfl⟩

theorem appendMeters_iff (g g' : VisibilityGroup) (s : Str) (next : VisIncomplete) :
    appendMeters g s next = some g' ↔
      ∃ d, MeterWord s d ∧ g' = { g with vis := d, incompleteText := next } := by
  unfold appendMeters
  simp only [← meterString_iff]
  cases h : Distance.fromMeterString s with
  | none => simp
  | some v =>
    simp only [Option.some.injEq]
    cases hr : v.isReported
    · simp only [Bool.not_false, if_true, reduceCtorEq, false_iff]
      rintro ⟨d, ⟨rfl, h2⟩, -⟩
      rw [hr] at h2; cases h2
    · simp only [Bool.not_true, Bool.false_eq_true, if_false, Option.some.injEq]
      constructor
      · rintro rfl; exact ⟨v, ⟨rfl, hr⟩, rfl⟩
      · rintro ⟨d, ⟨rfl, -⟩, rfl⟩; rfl

theorem meterWord_digits {s : Str} {d : Distance} (h : MeterWord s d) : ∃ n < 10000, s = decimal 4 n := by
  rcases h with ⟨rfl, -⟩ | ⟨n, hn, rfl, -⟩
  · exact ⟨9999, by omega, rfl⟩
  · exact ⟨n, by omega, rfl⟩

theorem digits_meterWord (n : Nat) (hn : n < 10000) : ∃ d, MeterWord (decimal 4 n) d ∧
    Distance.fromMeterString (decimal 4 n) = some d ∧ d.isReported = true := by
  have : ∃ d, MeterWord (decimal 4 n) d := by
    by_cases h : n = 9999
    · subst h; exact ⟨_, Or.inl ⟨rfl, rfl⟩⟩
    · exact ⟨_, Or.inr ⟨n, by omega, rfl, rfl⟩⟩
  obtain ⟨d, h⟩ := this
  exact ⟨d, h, (meterString_iff _ _).mpr h⟩

theorem meterRange_regex (s : Str) (m : Caps) :
    regexMatch variableMetersRgx s = some m ↔ ∃ f : Nat × Nat, (f.1 < 10000 ∧ f.2 < 10000) ∧
      s = decimal 4 f.1 ++ 'V' :: decimal 4 f.2 ∧ m = [(2, decimal 4 f.2), (1, decimal 4 f.1)] := by
  refine regexMatch_form ?_ ?_ s m
  · intro s c
    simp only [variableMetersRgx, ↓Rx.match_digits4, Rx.match_seq, Rx.match_cap, Rx.match_chr]
    constructor
    · rintro ⟨_, _, _, _, ⟨_, ⟨rfl, a, ha, rfl⟩, rfl⟩, ⟨_, _, _, _, ⟨rfl, rfl⟩, ⟨_, ⟨rfl, b, hb, rfl⟩, rfl⟩,
        rfl, rfl⟩, rfl, rfl⟩
      exact ⟨(a, b), ⟨ha, hb⟩, by simp, rfl⟩
    · rintro ⟨⟨a, b⟩, ⟨ha, hb⟩, rfl, rfl⟩
      exact ⟨decimal 4 a, c!"V" ++ decimal 4 b, _, _, ⟨[], ⟨rfl, a, ha, rfl⟩, rfl⟩,
        ⟨_, _, [], _, ⟨rfl, rfl⟩, ⟨[], ⟨rfl, b, hb, rfl⟩, rfl⟩, rfl, rfl⟩, by simp, rfl⟩
  · rintro ⟨a, b⟩ ⟨a', b'⟩ - - h
    obtain ⟨h1, h⟩ := List.append_inj h (by simp [decimal_length])
    simp only [List.cons.injEq, true_and] at h
    simp only [h1, h]

theorem appendVariableMeters_iff (g g' : VisibilityGroup) (s : Str) (next : VisIncomplete) :
    appendVariableMeters g s next = some g' ↔
      ∃ a b d e, MeterWord a d ∧ MeterWord b e ∧ s = a ++ 'V' :: b ∧
        g' = { makeVariable { g with vis := d, visMax := e } with incompleteText := next } := by
  have key : ∀ x y, x < 10000 → y < 10000 → ∃ d e, MeterWord (decimal 4 x) d ∧ MeterWord (decimal 4 y) e ∧
      appendVariableMeters g (decimal 4 x ++ 'V' :: decimal 4 y) next =
        some { makeVariable { g with vis := d, visMax := e } with incompleteText := next } := by
    intro x y hx hy
    obtain ⟨d, hd, d1, d2⟩ := digits_meterWord x hx
    obtain ⟨e, he, e1, e2⟩ := digits_meterWord y hy
    refine ⟨d, e, hd, he, ?_⟩
    unfold appendVariableMeters
    rw [(meterRange_regex _ _).mpr ⟨(x, y), ⟨hx, hy⟩, rfl, rfl⟩]
    have c1 : Caps.str [(2, decimal 4 y), (1, decimal 4 x)] 1 = decimal 4 x := rfl
    have c2 : Caps.str [(2, decimal 4 y), (1, decimal 4 x)] 2 = decimal 4 y := rfl
    simp only [c1, c2, d1, e1, d2, e2, Bool.not_true, Bool.or_self, Bool.false_eq_true, if_false]
  constructor
  · intro h
    cases hm : regexMatch variableMetersRgx s with
    | none => rw [appendVariableMeters, hm] at h; cases h
    | some m =>
      obtain ⟨⟨x, y⟩, ⟨hx, hy⟩, rfl, -⟩ := (meterRange_regex s m).mp hm
      obtain ⟨d, e, hd, he, hk⟩ := key x y hx hy
      rw [hk] at h
      exact ⟨_, _, d, e, hd, he, rfl, (Option.some.inj h).symm⟩
  · rintro ⟨a, b, d, e, ha, hb, rfl, rfl⟩
    obtain ⟨x, hx, rfl⟩ := meterWord_digits ha
    obtain ⟨y, hy, rfl⟩ := meterWord_digits hb
    obtain ⟨d', e', hd, he, hk⟩ := key x y hx hy
    rw [hk]
    have u : ∀ {s d d'}, MeterWord s d → MeterWord s d' → d = d' := by
      intro s d d' h h'
      have h1 := ((meterString_iff _ _).mpr h).1
      rw [((meterString_iff _ _).mpr h').1] at h1
      exact (Option.some.inj h1).symm
    rw [u ha hd, u hb he]

theorem appendRunway_iff (g g' : VisibilityGroup) (s : Str) (next : VisIncomplete) :
    appendRunway g s next = some g' ↔
      ∃ r, RunwayWord s r ∧ g' = { g with rw := some r, incompleteText := next,
                                          visType := if g.visType = .PREVAILING then .RUNWAY
                                            else if g.visType = .VARIABLE_PREVAILING then .VARIABLE_RUNWAY
                                            else g.visType } := by
  have hr : ∀ r, Runway.fromString s true = some r ↔ RunwayWord s r := by
    intro r
    rw [C24_runway]
    simp only [true_and]
    rfl
  unfold appendRunway
  cases h : Runway.fromString s true with
  | none =>
    simp only [reduceCtorEq, false_iff]
    rintro ⟨r, hw, -⟩
    rw [(hr r).mpr hw] at h; cases h
  | some r =>
    simp only [Option.some.injEq]
    constructor
    · rintro rfl; exact ⟨r, (hr r).mp h, rfl⟩
    · rintro ⟨r', hw, rfl⟩
      rw [(hr r').mpr hw] at h
      cases h; rfl

theorem where_iff (s : Str) (d f t : Option Direction) :
    WhereWord s d f t ↔
      (∃ x, Direction.fromCardinalString s = some x ∧ d = some x ∧ f = none ∧ t = none) ∨
      (Direction.fromCardinalString s = none ∧ ∃ a b, Direction.fromSectorString s = some (a, b) ∧
        d = none ∧ f = some a ∧ t = some b) := by
  constructor
  · intro h
    cases h with
    | octant h => exact Or.inl ⟨_, (C47_cardinal _ false false _).mpr (Or.inl ⟨_, h, rfl⟩), rfl, rfl, rfl⟩
    | ndv => exact Or.inl ⟨_, rfl, rfl, rfl, rfl⟩
    | @sector x n mid y m hn hm hmid =>
      right
      refine ⟨?_, _, _, (C59_sector _ _ _).mpr ⟨x, n, mid, y, m, hn, hm, hmid, rfl, rfl, rfl⟩, rfl, rfl, rfl⟩
      cases hc : Direction.fromCardinalString (dashed x (mid ++ [y])) with
      | none => rfl
      | some d => exact absurd (dashed_dash x mid y) (cardinal_no_dash hc)
  · rintro (⟨x, hx, rfl, rfl, rfl⟩ | ⟨-, a, b, h, rfl, rfl, rfl⟩)
    · rcases (C47_cardinal s false false x).mp hx with ⟨n, hn, rfl⟩ | ⟨rfl, rfl⟩ | ⟨h, -⟩ | ⟨h, -⟩ | ⟨h, -⟩
      · exact .octant hn
      · exact .ndv
      all_goals cases h
    · obtain ⟨x, n, mid, y, m, hn, hm, hmid, rfl, rfl, rfl⟩ := (C59_sector s a b).mp h
      exact .sector hn hm hmid

theorem appendDirection_iff (g g' : VisibilityGroup) (hd : g.dir = none) (hf : g.dirSecFrom = none)
    (ht : g.dirSecTo = none) (s : Str) (next : VisIncomplete) :
    appendDirection g s next = some g' ↔
      ∃ d f t, WhereWord s d f t ∧
        g' = { g with dir := d, dirSecFrom := f, dirSecTo := t, incompleteText := next,
                      visType := if g.visType = .PREVAILING then
                        (if d.isSome then .DIRECTIONAL else .SECTOR) else g.visType } := by
  simp only [where_iff]
  unfold appendDirection
  cases h : Direction.fromCardinalString s with
  | some x =>
    simp only [Option.some.injEq]
    constructor
    · rintro rfl
      exact ⟨some x, none, none, Or.inl ⟨x, rfl, rfl, rfl, rfl⟩, by simp [hf, ht]⟩
    · rintro ⟨d, f, t, ⟨y, rfl, rfl, rfl, rfl⟩ | ⟨h', -⟩, rfl⟩
      · simp [hf, ht]
      · cases h'
  | none =>
    cases hs : Direction.fromSectorString s with
    | none => simp
    | some p =>
      obtain ⟨a, b⟩ := p
      simp only [Option.some.injEq, reduceCtorEq, false_and, exists_false, false_or, true_and,
        Prod.mk.injEq]
      constructor
      · rintro rfl
        exact ⟨none, some a, some b, ⟨a, b, ⟨rfl, rfl⟩, rfl, rfl, rfl⟩, by simp [hd]⟩
      · rintro ⟨d, f, t, ⟨a', b', ⟨rfl, rfl⟩, rfl, rfl, rfl⟩, rfl⟩
        simp [hd]

/-! ### Kinds of text can be told apart -/

/-- 0 direction, 1 runway, 2 range in metres, 3 range in miles, 4 fraction, 5 metres, 6 whole miles. -/
def wordKind (s : Str) : Nat :=
  if (s.head?.any fun c => c ∈ c!"NSWE") = true then 0
  else if s.head? = some 'R' then 1
  else if 'V' ∈ s then (if s.length = 9 ∧ '/' ∉ s then 2 else 3)
  else if '/' ∈ s then 4
  else if s.length = 4 then 5
  else 6

theorem kind_head {s r : Str} {c : Char} (hs : s = c :: r) (h : isDigit c = true ∨ c = 'P' ∨ c = 'M') :
    (s.head?.any fun c => decide (c ∈ c!"NSWE")) = false ∧ s.head? ≠ some 'R' := by
  subst hs
  have : c ∉ c!"NSWE" ∧ c ≠ 'R' := by
    rcases h with h | rfl | rfl
    · constructor
      · intro hc
        simp only [List.mem_cons, List.not_mem_nil, or_false] at hc
        rcases hc with rfl | rfl | rfl | rfl <;> revert h <;> decide
      · rintro rfl; revert h; decide
    · decide
    · decide
  simpa using this

theorem kind_where {s : Str} {d f t : Option Direction} (h : WhereWord s d f t) : wordKind s = 0 := by
  have oct : ∀ {w n} {r : Str}, (w, n) ∈ octantNames → wordKind (w ++ r) = 0 := by
    intro w n r hn
    simp only [octantNames, List.mem_cons, Prod.mk.injEq, List.not_mem_nil, or_false] at hn
    rcases hn with ⟨rfl, -⟩ | ⟨rfl, -⟩ | ⟨rfl, -⟩ | ⟨rfl, -⟩ | ⟨rfl, -⟩ | ⟨rfl, -⟩ | ⟨rfl, -⟩ | ⟨rfl, -⟩ <;>
      simp [wordKind]
  cases h with
  | octant h => simpa using oct (r := []) h
  | ndv => decide
  | @sector x n mid y m hn _ _ =>
    have : ∃ r, dashed x (mid ++ [y]) = x ++ r := by
      cases mid <;> simp [dashed]
    obtain ⟨r, hr⟩ := this
    rw [hr]; exact oct hn

theorem kind_runway {s : Str} {r : Runway} (h : RunwayWord s r) : wordKind s = 1 := by
  obtain ⟨-, pre, rfl | rfl, rfl⟩ := h <;> simp [wordKind]

theorem digit4_noslash (n : Nat) : '/' ∉ decimal 4 n ∧ 'V' ∉ decimal 4 n := by
  constructor <;> intro h <;> have := decimal_digits _ _ _ h <;> revert this <;> decide

theorem kind_meters {s : Str} {d : Distance} (h : MeterWord s d) : wordKind s = 5 := by
  obtain ⟨n, -, rfl⟩ := meterWord_digits h
  obtain ⟨a, b, e, f, ha, -, -, -, hs⟩ := decimal_four_digits n
  obtain ⟨h1, h2⟩ := kind_head hs (Or.inl ha)
  obtain ⟨h3, h4⟩ := digit4_noslash n
  unfold wordKind
  rw [if_neg (by simp only [h1]; decide), if_neg h2, if_neg h4, if_neg h3, if_pos (decimal_length 4 n)]

theorem kind_meterRange {a b : Str} {d e : Distance} (ha : MeterWord a d) (hb : MeterWord b e) :
    wordKind (a ++ 'V' :: b) = 2 := by
  obtain ⟨n, -, rfl⟩ := meterWord_digits ha
  obtain ⟨k, -, rfl⟩ := meterWord_digits hb
  obtain ⟨x, y, z, w, hx, -, -, -, hs⟩ := decimal_four_digits n
  obtain ⟨h1, h2⟩ := kind_head (s := decimal 4 n ++ 'V' :: decimal 4 k) (c := x)
    (r := [y, z, w] ++ 'V' :: decimal 4 k) (by rw [hs]; rfl) (Or.inl hx)
  unfold wordKind
  rw [if_neg (by simp only [h1]; decide), if_neg h2, if_pos (by simp), if_pos]
  refine ⟨by simp [decimal_length], ?_⟩
  simp [digit4_noslash]

theorem kind_range {a b : Str} {m m' : Modifier} {q q' : Rat} (ha : MileWord a m q)
    (hb : MileWord b m' q') : wordKind (a ++ 'V' :: b) = 3 := by
  obtain ⟨c, r, hc, hh⟩ := mileWord_head ha
  obtain ⟨h1, h2⟩ := kind_head (s := a ++ 'V' :: b) (c := c) (r := r ++ 'V' :: b) (by rw [hc]; rfl) hh
  unfold wordKind
  rw [if_neg (by simp only [h1]; decide), if_neg h2, if_pos (by simp), if_neg]
  rintro ⟨hl, hs⟩
  simp only [List.mem_append, List.mem_cons, not_or] at hs
  obtain ⟨-, -, -, hla, -⟩ := wholeWord_nat ⟨ha, hs.1⟩
  obtain ⟨-, -, -, hlb, -⟩ := wholeWord_nat ⟨hb, hs.2.2⟩
  simp only [List.length_append, List.length_cons] at hl
  omega

theorem kind_part {s : Str} {m : Modifier} {q : Rat} (h : PartWord s m q) : wordKind s = 4 := by
  obtain ⟨c, r, hc, hh⟩ := mileWord_head h.1
  obtain ⟨h1, h2⟩ := kind_head hc hh
  unfold wordKind
  rw [if_neg (by simp only [h1]; decide), if_neg h2, if_neg (mileWord_noV h.1), if_pos h.2]

theorem kind_fraction {s : Str} {q : Rat} (h : FractionWord s q) : wordKind s = 4 := by
  obtain ⟨i, j, a, b, hi, hj, -, -, -, rfl, -⟩ := h
  have hd : ∃ c r, decimal i a ++ '/' :: decimal j b = c :: r ∧ isDigit c = true := by
    rcases hi with rfl | rfl
    · exact ⟨_, _, rfl, digitChar_isDigit (Nat.mod_lt _ (by omega))⟩
    · exact ⟨_, _, rfl, digitChar_isDigit (Nat.mod_lt _ (by omega))⟩
  obtain ⟨c, r, hc, hdg⟩ := hd
  obtain ⟨h1, h2⟩ := kind_head hc (Or.inl hdg)
  have hv : 'V' ∉ decimal i a ++ '/' :: decimal j b := by
    intro h
    simp only [List.mem_append, List.mem_cons] at h
    rcases h with h | h | h
    · have := decimal_digits _ _ _ h; revert this; decide
    · revert h; decide
    · have := decimal_digits _ _ _ h; revert this; decide
  unfold wordKind
  rw [if_neg (by simp only [h1]; decide), if_neg h2, if_neg hv, if_pos (by simp)]

theorem kind_whole {s : Str} {m : Modifier} {q : Rat} (h : WholeWord s m q) : wordKind s = 6 := by
  obtain ⟨c, r, hc, hh⟩ := mileWord_head h.1
  obtain ⟨h1, h2⟩ := kind_head hc hh
  obtain ⟨n, -, -, hl, -⟩ := wholeWord_nat h
  unfold wordKind
  rw [if_neg (by simp only [h1]; decide), if_neg h2, if_neg (mileWord_noV h.1), if_neg h.2,
    if_neg (by omega)]

end Metaf.Props
